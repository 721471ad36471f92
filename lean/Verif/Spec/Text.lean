import Verif.Model.Basic

/-! # Names the specifications spell out themselves -/

namespace Bolt

/-- The bytes of a string literal. -/
def txt (s : String) : Str := s.toUTF8.data.toList

end Bolt
