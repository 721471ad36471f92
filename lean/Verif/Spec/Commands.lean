import Verif.Model.Basic

/-! # The commands of a transaction, as the server knows them -/

namespace Bolt

/-- `BEGIN` -/
def txBegin : Str := [66, 69, 71, 73, 78]

/-- `COMMIT` -/
def txCommit : Str := [67, 79, 77, 77, 73, 84]

/-- `ROLLBACK` -/
def txRollback : Str := [82, 79, 76, 76, 66, 65, 67, 75]

end Bolt
