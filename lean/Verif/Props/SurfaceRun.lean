import Verif.Props.Surface
import Verif.Props.Session5

/-! C57 and C61 on a connection. -/

namespace Bolt

/-- A row of true and a list of nil, read through the database/sql interface from a server that sends it. -/
example : ∃ w, (do
    match ← queryNeo script (closeN script 1) [65] [] with
    | .ok r => sqlNext script (closeN script 1) r [.plain .nil, .plain .nil]
    | .error _ => M.panic .index : M _ _)
      (scriptConn [[.val (.success [])], [.val (.record [.bool true, .list [.nil]]), .val (.success [])]]) =
      .ok (.ok [.plain (.bool true), .bytes [0, 2, 0x91, 0xC0, 0, 0]]) w := by
  obtain ⟨a, w, h1, h2⟩ := Out.of_test (o := (do
    match ← queryNeo script (closeN script 1) [65] [] with
    | .ok r => sqlNext script (closeN script 1) r [.plain .nil, .plain .nil]
    | .error _ => M.panic .index : M _ _)
      (scriptConn [[.val (.success [])], [.val (.record [.bool true, .list [.nil]]), .val (.success [])]]))
    (p := fun a _ => match a with
      | .ok [.plain (.bool true), .bytes b] => b == [0, 2, 0x91, 0xC0, 0, 0]
      | _ => false) (by decide +kernel)
  refine ⟨w, h1.trans ?_⟩
  split at h2
  · rw [beq_iff_eq] at h2; rw [h2]
  · cases h2

end Bolt
