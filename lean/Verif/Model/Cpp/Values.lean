import Verif.Model.Cpp.Sem
import Verif.Model.Base

/-! # The values of characters and strings -/

namespace Ansak.Cpp

/-- The value of a `char` with these bits. -/
def charVal (sc : Bool) (b : Byte) : Int := bif sc then b.toInt else b.toNat

/-- A buffer or string of `char`. -/
def units8 (sc : Bool) (l : List Byte) : List Int := l.map (charVal sc)
/-- A buffer or string of `char16_t`. -/
def units16 (l : List U16) : List Int := l.map fun c => (c.toNat : Int)
/-- A buffer or string of `char32_t`. -/
def units32 (l : List U32) : List Int := l.map fun c => (c.toNat : Int)

end Ansak.Cpp
