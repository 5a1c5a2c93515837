import Verif.Spec.NavParse
import Verif.Spec.Calendar

/-! Lines that carry a complete time stamp. -/

namespace Shipgrav.Spec

/-- `yyyy:jjj:hh:mm:ss.f…f` with `k` decimals: the stamp of Langseth's logger. -/
def julianStamp (y doy h mi s k f : ℕ) : Str :=
  zpad 4 y ++ (':' :: (zpad 3 doy ++ (':' :: (zpad 2 h ++ (':' :: (zpad 2 mi ++ (':' :: (zpad 2 s ++ ('.' :: zpad k f)))))))))

/-- `yyyy-mm-ddThh:mm:ss.f…fZ` with `k` decimals. -/
def isoStamp (y m d h mi s k f : ℕ) : Str :=
  isoDate y m d ++ ('T' :: (zpad 2 h ++ (':' :: (zpad 2 mi ++ (':' :: (zpad 2 s ++ ('.' :: (zpad k f ++ ['Z']))))))))

/-- `i.f…f` with `k` decimals of a second: seconds since 1970. -/
def posixStamp (i k f : ℕ) : Str := natStr i ++ ('.' :: zpad k f)

end Shipgrav.Spec
