import Verif.Props.Session7
import Verif.Model.Stream
import Verif.Spec.PipeRows

/-!
# C96: NextPipeline reports what was received

`c64_…` is about NextNeo and All, `c70_…` about the calls that start a query. Here is NextPipeline.
-/

namespace Bolt

variable {σ : Type} {P : Peer σ} {w w1 : World σ} {close : M σ (Option GoErr)}

/-- What a result without an error reports. -/
def PipeRes.step (x : PipeRes) (md : KVs) : PStep :=
  match x.row, x.next with
  | some fs, _ => .row fs
  | none, some _ => .next (x.md.getD []) md
  | none, none => .done

theorem pipeHeader_run {row : Rows} {v : Val} {x : PipeRes} (h : pipeHeader row v w = .ok x w1) (hx : x.err = none) :
    ∃ md, v = .success md ∧ x = ⟨none, some md, some w.rows.length, none⟩ ∧ w1.log = w.log ∧ (w1.row w.rows.length).md = md := by
  cases v with
  | success md =>
    cases h
    exact ⟨md, rfl, rfl, rfl, by simp [World.row, World.setStmt]⟩
  | _ => cases h; cases hx

/-- C96, one call. Any peer, any state: a call of NextPipeline without an error has written nothing, and what it received
justifies what it reports; the end is reported for the last query only, the step to the next one for the others. The one
exception is a header that breaks off inside a number (see `c96_false`). -/
theorem c96_call_partial {r : Nat} {x : PipeRes} (h : nextPipeline P close r w = .ok x w1) (hx : x.err = none) :
    ∃ l, w1.log = w.log ++ l.map .recv ∧
      (Justifies l (x.step (w1.row (x.next.getD 0)).md) ∨ Unjustified l (x.step (w1.row (x.next.getD 0)).md)) ∧
      (x.row = none → (x.next = none ↔ (w.row r).idx + 1 = (w.stmt (w.row r).stmt).queries.length)) := by
  obtain ⟨_, _, h1, h⟩ := run_inv h
  cases h1
  split at h
  · cases h; cases hx
  · obtain ⟨⟨v, e⟩, w2, h1, h⟩ := run_inv h
    have h1 := withConn_runs h1
    cases e with
    | some e =>
      cases v <;> cases h <;> cases hx
    | none =>
      have hl := consume_received h1
      have hk := consume_keeps h1
      cases v with
      | success sm =>
        obtain ⟨_, _, h2, h⟩ := run_inv h
        cases h2
        have hq : (w2.stmt (w.row r).stmt).queries.length = (w.stmt (w.row r).stmt).queries.length := by unfold World.stmt; rw [hk.1]
        split at h
        · next hi =>
          obtain ⟨_, _, h2, h⟩ := run_inv h
          cases h2
          cases h
          exact ⟨[.val (.success sm)], hl, .inl (.done sm), fun _ => ⟨fun _ => hi.trans hq, fun _ => rfl⟩⟩
        · next hi =>
          obtain ⟨⟨v, e⟩, w3, h2, h⟩ := run_inv h
          have h2 := withConn_runs h2
          have hne : ¬ ((w.row r).idx + 1 = (w.stmt (w.row r).stmt).queries.length) := fun h => hi (h.trans hq.symm)
          cases e with
          | some e =>
            simp only at h
            split at h
            · next he =>
              obtain ⟨half, -, rfl, rfl⟩ := consume_eof_run h2 he
              obtain ⟨md, hv, rfl, h4, h5⟩ := pipeHeader_run h hx
              cases half with
              | false => cases hv
              | true =>
                cases hv
                refine ⟨[.val (.success sm), .bad .eof true], by rw [h4]; simp [hl], .inr ?_, fun _ => ⟨fun h => (by cases h), fun h => (hne h).elim⟩⟩
                have : ∀ m, m = [] → Unjustified [.val (.success sm), .bad .eof true] (.next [] m) := fun _ h => h ▸ .mk sm
                exact this _ h5
            · cases h; cases hx
          | none =>
            obtain ⟨md, rfl, rfl, h4, h5⟩ := pipeHeader_run h hx
            refine ⟨[.val (.success sm), .val (.success md)], by rw [h4, consume_received h2, hl]; simp, .inl ?_,
              fun _ => ⟨fun h => (by cases h), fun h => (hne h).elim⟩⟩
            have : ∀ m, m = md → Justifies [.val (.success sm), .val (.success md)] (.next md m) := fun _ h => h ▸ .next sm md
            exact this _ h5
      | record fs =>
        cases h
        exact ⟨[.val (.record fs)], hl, .inl (.row fs), fun h => (by cases h)⟩
      | _ => cases h; cases hx

/-- An error comes alone. -/
theorem c96_error {r : Nat} {x : PipeRes} {e : GoErr} (h : nextPipeline P close r w = .ok x w1) (hx : x.err = some e) :
    x.row = none ∧ x.md = none ∧ x.next = none := by
  have hdr : ∀ {row : Rows} {v : Val} {w2 : World σ}, pipeHeader row v w2 = .ok x w1 → x.row = none ∧ x.md = none ∧ x.next = none := by
    intro row v w2 h
    cases v with
    | success md => cases h; cases hx
    | _ => cases h; exact ⟨rfl, rfl, rfl⟩
  obtain ⟨_, _, h1, h⟩ := run_inv h
  cases h1
  split at h
  · cases h; exact ⟨rfl, rfl, rfl⟩
  · obtain ⟨⟨v, e⟩, w2, h1, h⟩ := run_inv h
    cases e with
    | some e => cases v <;> cases h <;> exact ⟨rfl, rfl, rfl⟩
    | none =>
      cases v with
      | success sm =>
        obtain ⟨_, _, h2, h⟩ := run_inv h
        split at h
        · obtain ⟨_, _, h2, h⟩ := run_inv h
          cases h; cases hx
        · obtain ⟨⟨v, e⟩, w3, h2, h⟩ := run_inv h
          cases e with
          | some e =>
            simp only at h
            split at h
            · exact hdr h
            · cases h; exact ⟨rfl, rfl, rfl⟩
          | none => exact hdr h
      | record fs => cases h; cases hx
      | _ => cases h; exact ⟨rfl, rfl, rfl⟩

/-- C96, a client that walks through a pipeline, any number of calls. Any peer, any state: what the client saw before an
error, or altogether, is justified report by report by what was received, in that order, with the exception of
`c96_call_partial`. -/
theorem c96_walk_partial : ∀ (n r : Nat) {w w1 : World σ} {steps : List PStep} {e : Option GoErr} {r' : Nat},
    walk P close n r w = .ok (steps, e, r') w1 →
    ∃ l w2, Heard (fun l s => Justifies l s ∨ Unjustified l s) l steps ∧ w2.log = w.log ++ l.map .recv ∧
      (match e with | none => w1 = w2 | some e => ∃ r x, nextPipeline P close r w2 = .ok x w1 ∧ x.err = some e)
  | 0, r, w, w1, steps, e, r', h => by
    cases h
    exact ⟨[], w, .nil, by simp, rfl⟩
  | n + 1, r, w, w1, steps, e, r', h => by
    unfold walk at h
    obtain ⟨x, w3, h1, h⟩ := run_inv h
    obtain ⟨row, md, next, err⟩ := x
    cases err with
    | some e1 =>
      cases h
      exact ⟨[], w, .nil, by simp, r, _, h1, rfl⟩
    | none =>
      obtain ⟨l1, h2, h3, -⟩ := c96_call_partial h1 rfl
      cases row with
      | some fs =>
        obtain ⟨⟨st, e1, r1⟩, w4, h4, h⟩ := run_inv h
        cases h
        obtain ⟨l, w2, h5, h6, h7⟩ := c96_walk_partial n r h4
        exact ⟨l1 ++ l, w2, .cons h3 h5, by rw [h6, h2]; simp, h7⟩
      | none =>
        cases next with
        | some r1 =>
          obtain ⟨_, _, h8, h⟩ := run_inv h
          cases h8
          obtain ⟨⟨st, e1, r2⟩, w4, h4, h⟩ := run_inv h
          cases h
          obtain ⟨l, w2, h5, h6, h7⟩ := c96_walk_partial n r1 h4
          exact ⟨l1 ++ l, w2, .cons h3 h5, by rw [h6, h2]; simp, h7⟩
        | none =>
          cases h
          exact ⟨l1 ++ [], w1, .cons h3 .nil, by rw [h2]; simp, rfl⟩

/-! ## The exception -/

/-- Two bytes announce a SUCCESS, the third an integer of one byte, which is missing: `decodeSuccessMessage` returns an
empty message and the bare `io.EOF` of `binary.Read`. -/
theorem brokenOff : Item.ofPayload [0xB1, 0x70, 0xC8] = .bad .eof true := rfl

/-- A server that answers a pipeline of two queries: a header, a summary, and a second header that breaks off. -/
def brokenHeader : List (List Item) :=
  [[.val (.success [])], [.val (.success [])], [.ofPayload [0xB1, 0x70, 0xC8]]]

/-- C96 is false: NextPipeline takes the header that breaks off for an empty one, and returns the rows of the second query
without an error. -/
theorem c96_false : ∃ r x w1 w2, queryPipeline script (closeN script 1) [[65], [66]] [[], []] (scriptConn brokenHeader) = .ok (.ok r) w1 ∧
    nextPipeline script (closeN script 1) r w1 = .ok x w2 ∧ x.err = none ∧ x.next.isSome = true ∧ x.md = some [] ∧
    receipts w2.log = [.val (.success []), .val (.success []), .bad .eof true] := by
  obtain ⟨⟨r, w1⟩, w1', h1, h2⟩ := Out.of_test (o := (do
      match ← queryPipeline script (closeN script 1) [[65], [66]] [[], []] with
      | .ok r => M.pure (r, ← M.get id)
      | .error _ => M.panic .index : M _ _) (scriptConn brokenHeader))
    (p := fun a _ => (nextPipeline script (closeN script 1) a.1 a.2).test fun x w => match x.err, x.next, x.md, receipts w.log with
      | none, some _, some [], [.val (.success []), .val (.success []), .bad .eof true] => true
      | _, _, _, _ => false)
    (by decide +kernel)
  obtain ⟨x, w2, h3, h4⟩ := run_inv h1
  cases x with
  | error e => cases h4
  | ok r' =>
    cases h4
    obtain ⟨x, w3, h5, h6⟩ := Out.of_test h2
    refine ⟨r, x, _, w3, h3, h5, ?_⟩
    split at h6
    · next h7 h8 h9 h10 => exact ⟨h7, by rw [h8]; rfl, h9, h10⟩
    · cases h6

/-- `c96_call_partial` applies to it, with the exception. -/
example : ∃ r x w1 w2, ∃ l : List Item, nextPipeline script (closeN script 1) r w1 = .ok x w2 ∧ x.err = none ∧ w2.log = w1.log ++ l.map .recv ∧ x.next.isSome = true := by
  obtain ⟨r, x, w1, w2, _, h1, h2, h3, _⟩ := c96_false
  obtain ⟨l, h4, _⟩ := c96_call_partial h1 h2
  exact ⟨r, x, w1, w2, l, h1, h2, h4, h3⟩

/-- A pipeline of two queries with a row each, walked to the end: `c96_walk_partial` applies, to five messages. -/
example : ∃ r w1 w2 steps l, queryPipeline script (closeN script 1) [[65], [66]] [[], []]
      (scriptConn [[.val (.success [])], [.val (.record []), .val (.success [])], [.val (.success [])], [.val (.record []), .val (.success [])]]) = .ok (.ok r) w1 ∧
    (∃ r', walk script (closeN script 1) 9 r w1 = .ok (steps, none, r') w2) ∧ steps.length = 4 ∧
    Heard (fun l s => Justifies l s ∨ Unjustified l s) l steps ∧ w2.log = w1.log ++ l.map .recv := by
  obtain ⟨⟨r, w1⟩, w1', h1, h2⟩ := Out.of_test (o := (do
      match ← queryPipeline script (closeN script 1) [[65], [66]] [[], []] with
      | .ok r => M.pure (r, ← M.get id)
      | .error _ => M.panic .index : M _ _)
      (scriptConn [[.val (.success [])], [.val (.record []), .val (.success [])], [.val (.success [])], [.val (.record []), .val (.success [])]]))
    (p := fun a _ => (walk script (closeN script 1) 9 a.1 a.2).test fun x w => match x.2.1 with
      | none => x.1.length == 4
      | _ => false)
    (by decide +kernel)
  obtain ⟨x, w2, h3, h4⟩ := run_inv h1
  cases x with
  | error e => cases h4
  | ok r' =>
    cases h4
    obtain ⟨⟨steps, e, r2⟩, w3, h5, h6⟩ := Out.of_test h2
    cases e with
    | some e => cases h6
    | none =>
      obtain ⟨l, w4, h7, h8, h9⟩ := c96_walk_partial 9 r h5
      cases h9
      exact ⟨r, _, w3, steps, l, h3, ⟨r2, h5⟩, by simpa using h6, h7, h8⟩

end Bolt
