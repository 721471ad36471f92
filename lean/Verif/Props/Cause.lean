import Verif.Proofs.Bare
import Verif.Proofs.Steps
import Verif.Props.Session1
import Verif.Props.Failures

/-!
# C92: the documented way to the cause of an error

doc.go:84-93 tells callers to write `err.(*errors.Error).InnerMost()`, and
`err.(*errors.Error).InnerMost().(messages.FailureMessage).Metadata` for the metadata of a failure.
-/

namespace Bolt

variable {σ : Type} {P : Peer σ} {n : Nat} {w w' : World σ}

/-- C92: any peer, any state, any call: `err.(*errors.Error).InnerMost()` does not panic, except for: `io.EOF` from Next
and NextNeo; the error of a message received during this call that did not decode; `driver.ErrBadConn` when the server
answered ACK_FAILURE or RESET with something else than SUCCESS, FAILURE or IGNORED, and when Close could not close the
socket. -/
theorem c92_partial {op : Op} {e : GoErr} (h : op.run P (closeN P n) w = .ok (some e) w') : ∃ l, w'.log = w.log ++ l ∧
    (docCause e = some e.innerMost ∨ (e = .eof ∧ ∃ r, op = .next r) ∨ (∃ half, .recv (.bad e half) ∈ l) ∨ (e = .badConn ∧ StrangeAnswer l) ∨
      (e = .badConn ∧ op = .close ∧ w'.sockCloseErr = true)) := by
  obtain ⟨l, h1, h2⟩ := Bare.bares_op (P := P) (n := n) (op := op) (w := w)
  rw [h] at h1
  refine ⟨l, h1, ?_⟩
  cases hl : e.isLib with
  | true => exact .inl (by rw [docCause, hl]; rfl)
  | false =>
    rcases h2 _ _ h e ⟨rfl, hl⟩ with h | (h | h) | h
    · exact .inr (.inl h)
    · exact .inr (.inr (.inl h))
    · exact .inr (.inr (.inr (.inl h)))
    · exact .inr (.inr (.inr (.inr h)))

/-- C92, the messages that do not decode: decoding any byte stream gives errors made by `errors.New` or `errors.Wrap`, or
`io.EOF` or `io.ErrUnexpectedEOF`. -/
theorem c92_decoder {r : Source} {e : GoErr} {half : Bool} (h : .bad e half ∈ r.items) : e.isLib = true ∨ e.isShort = true := by
  rcases Bare.items_bad _ _ _ _ h with h | rfl | rfl
  · exact .inl h
  · exact .inr rfl
  · exact .inr rfl

/-- The errors received during a call. -/
theorem call_garbles {Q : GoErr → Prop} (hP : P.Garbles Q) (hw : ∀ e half, .bad e half ∈ w.inbox → Q e) {op : Op} {a : Option GoErr} {w' : World σ}
    (h : op.run P (closeN P n) w = .ok a w') {l : List Event} (hl : w'.log = w.log ++ l) {e : GoErr} {half : Bool} (he : .recv (.bad e half) ∈ l) : Q e := by
  have steps : ∀ {w1 : World σ}, Moves P w w1 → (∀ e half, .bad e half ∈ w1.inbox → Q e) ∧ ∃ l, w1.log = w.log ++ l ∧ ∀ e half, .recv (.bad e half) ∈ l → Q e := by
    intro w1 h
    induction h with
    | refl => exact ⟨hw, [], by simp, fun _ _ h => by cases h⟩
    | @tail w2 w3 _ s ih =>
      obtain ⟨h1, l, h2, h3⟩ := ih
      cases s with
      | own _ hi _ hlog => exact ⟨by rw [hi]; exact h1, l, by rw [hlog, h2], h3⟩
      | send v =>
        refine ⟨fun e half he => ?_, l ++ [_], by simp only [send, Out.world]; rw [h2, List.append_assoc], fun e half he => h3 e half (by simpa using he)⟩
        simp only [send, Out.world, List.mem_append] at he
        rcases he with he | he
        · exact h1 e half he
        · split at he
          · cases he
          · exact hP _ _ e half he
      | recv =>
        have hr : (recv P w2).world.inbox = w2.inbox.tail ∧ (recv P w2).world.log = w2.log ++ [.recv (nextItem P w2)] := by
          unfold recv
          simp only
          split <;> simp [Out.world, *]
        refine ⟨fun e half he => h1 e half (List.mem_of_mem_tail (hr.1 ▸ he)), l ++ [_], by rw [hr.2, h2, List.append_assoc], fun e half he => ?_⟩
        rcases List.mem_append.1 he with he | he
        · exact h3 e half he
        · have he : Item.bad e half = nextItem P w2 := by simpa using he
          refine h1 e half ?_
          unfold nextItem at he
          split at he
          · next hi => rw [hi, he]; exact List.mem_cons_self
          · repeat' split at he
            all_goals cases he
      | shut => exact ⟨fun e half he => (by cases he), l, h2, h3⟩
  by_cases hop : ∃ m, op = .setChunkSize m
  · obtain ⟨m, rfl⟩ := hop
    cases h
    have : l = [] := by simpa using hl
    subst this
    cases he
  · have h' := does_op (does_closeN (P := P) n) op (fun m hm => hop ⟨m, hm⟩) w
    rw [h] at h'
    obtain ⟨-, l', h2, h3⟩ := steps h'
    obtain rfl : l' = l := List.append_cancel_left ((show w'.log = _ from h2).symm.trans hl)
    exact h3 e half he

/-- C92: the metadata of a failure. Any peer whose undecodable messages give the errors of the decoder (`c92_decoder`), any
state, any call: when the innermost error is a FAILURE message, `err.(*errors.Error).InnerMost().(messages.FailureMessage).Metadata`
gives its metadata. -/
theorem c92_metadata (hP : P.Garbles fun e => e.isLib = true ∨ e.isShort = true) (hw : ∀ e half, .bad e half ∈ w.inbox → e.isLib = true ∨ e.isShort = true) {op : Op} {e : GoErr} {md : KVs}
    (h : op.run P (closeN P n) w = .ok (some e) w') (he : e.innerMost = .failure md) : docMetadata e = some md := by
  have hc : docCause e = some (.failure md) := by
    obtain ⟨l, hl, h1⟩ := c92_partial h
    rcases h1 with h1 | ⟨rfl, _⟩ | ⟨_, h1⟩ | ⟨rfl, _⟩ | ⟨rfl, _⟩
    · rw [h1, he]
    · cases he
    · rcases call_garbles hP hw h hl h1 with h | h
      · rw [docCause, h, he]; rfl
      · cases e <;> cases h <;> cases he
    · cases he
    · cases he
  rw [docMetadata, hc]

/-- C92, with an honest server: any database, any idle connection, any statement: when the database refuses it or breaks it
off, the documented expression gives the metadata of its FAILURE. -/
theorem c92_honest_partial {δ : Type} {D : DB δ} {w : World (Srv δ)} {d : δ} (h : Idle w d) {q : Str} {kvs : KVs} (hs : Sendable w.chunkSize (.run q kvs)) :
    ∃ ps res w', MeansKVs kvs ps ∧ execNeo D.peer (closeN D.peer n) q kvs w = .ok res w' ∧
      ∀ md, (D.exec d q ps).2.failure? = some md → ∃ e, res = .error e ∧ docMetadata e = some md := by
  obtain ⟨ps, res, w', h1, h2, h3, h4⟩ := c20_execNeo_partial (close := closeN D.peer n) (D := D) h hs
  have hP : D.peer.Garbles fun e => e.isLib = true ∨ e.isShort = true := by
    intro s bs e half he
    obtain ⟨v, _, hv⟩ := List.mem_map.1 (show _ ∈ List.map Item.val _ from he)
    cases hv
  have hw : ∀ e half, .bad e half ∈ w.inbox → e.isLib = true ∨ e.isShort = true := fun e half he => by rw [h.synced.inbox] at he; cases he
  have fin : ∀ md, (∃ e, res = .error e ∧ e.innerMost = .failure md) → ∃ e, res = .error e ∧ docMetadata e = some md := by
    rintro md ⟨e, rfl, he⟩
    exact ⟨e, rfl, c92_metadata (n := n) (op := .exec q kvs) hP hw (show (execNeo _ _ _ _ >>= fun x => M.pure (exceptErr x)) w = _ from mbind_ok h2) he⟩
  refine ⟨ps, res, w', h1, h2, fun md hmd => fin md ?_⟩
  cases ho : (D.exec d q ps).2 with
  | refused md' =>
    rw [ho] at h4 hmd
    cases hmd
    exact h4.1
  | answer hd rs en =>
    cases en with
    | summary md' => rw [ho] at hmd; cases hmd
    | broken md' =>
      rw [ho] at h4 hmd
      cases hmd
      exact h4.1

/-- The demo database refuses a statement. -/
example : ∃ e w', execNeo demo.peer (closeN demo.peer 1) [82, 82] [] (freshConn 0 4096) = .ok (.error e) w' ∧ docMetadata e = some [([114], .int .int64 0)] := by
  obtain ⟨ps, res, w', _, h2, h3⟩ := c92_honest_partial (D := demo) (n := 1) demo_idle (demo_sendable [82, 82] (by decide))
  obtain ⟨e, rfl, he⟩ := h3 _ rfl
  exact ⟨e, w', h2, he⟩

/-- The error is `driver.ErrBadConn` itself. -/
def GoErr.isBareBadConn : GoErr → Bool
  | .badConn => true
  | _ => false

theorem bare_badConn_eq {e : GoErr} (h : e.isBareBadConn = true) : e = .badConn := by cases e <;> first | rfl | cases h
theorem isEOF_eq {e : GoErr} (h : e.isEOF = true) : e = .eof := by cases e <;> first | rfl | cases h

/-- A server that refuses a statement, then ACK_FAILURE, and accepts RESET: the documented expression gives the
metadata of the first FAILURE. -/
theorem c92_case : ∃ e w', (Op.exec [65] []).run script (closeN script 1) (scriptConn stubborn) = .ok (some e) w' ∧ docMetadata e = some [([99], .int .int64 1)] := by
  obtain ⟨a, w', h1, h2⟩ := Out.of_test (o := (Op.exec [65] []).run script (closeN script 1) (scriptConn stubborn))
    (p := fun a _ => match a with
      | some e => (match docMetadata e with | some [([99], .int .int64 1)] => true | _ => false)
      | none => false) (by decide +kernel)
  cases a with
  | none => cases h2
  | some e =>
    refine ⟨e, w', h1, ?_⟩
    simp only at h2
    split at h2
    · assumption
    · cases h2

/-- C92 is false: the server answers ACK_FAILURE with something it should not send; the error is `driver.ErrBadConn` itself,
and the documented expression panics. -/
theorem c92_strange_false : ∃ e w', (Op.exec [65] []).run script (closeN script 1) (scriptConn [[.val (.failure [])], [], [.val (.record [])]]) = .ok (some e) w' ∧
    e = .badConn ∧ docCause e = none := by
  obtain ⟨a, w', h1, h2⟩ := Out.of_test (o := (Op.exec [65] []).run script (closeN script 1) (scriptConn [[.val (.failure [])], [], [.val (.record [])]]))
    (p := fun a _ => match a with | some e => e.isBareBadConn | none => false) (by decide +kernel)
  cases a with
  | none => cases h2
  | some e => obtain rfl := bare_badConn_eq h2; exact ⟨_, w', h1, rfl, rfl⟩

/-- RUN is answered with SUCCESS; then comes a record whose only field is a 16-bit integer of which the bytes are missing. -/
def noBytes : List (List Item) := [[.val (.success [])], [Item.ofPayload [0xB1, 0x71, 0x91, 0xC9]]]

/-- So it does for this record: the error is `io.EOF` itself, which is also what Next returns at the end of the rows. -/
theorem c92_garbled_false : ∃ w e w', Reach script 1 (scriptConn noBytes) w ∧ (Op.nextPipe 0).run script (closeN script 1) w = .ok (some e) w' ∧ e = .eof ∧ docCause e = none := by
  obtain ⟨a, w, h1, h2⟩ := Out.of_test (o := Op.run script (closeN script 1) (.query [65] []) (scriptConn noBytes))
    (p := fun _ w => (Op.run script (closeN script 1) (.nextPipe 0) w).test fun a _ => match a with | some e => e.isEOF | none => false) (by decide +kernel)
  obtain ⟨b, w1, h3, h4⟩ := Out.of_test h2
  cases b with
  | none => cases h4
  | some e => obtain rfl := isEOF_eq h4; exact ⟨w, _, w1, .step (op := .query [65] []) (.refl _) trivial h1, h3, rfl, rfl⟩

/-- So it does when Close cannot close the socket. -/
theorem c92_close_false : ∃ e w', Op.close.run script (closeN script 1) { scriptConn [] with sockCloseErr := true } = .ok (some e) w' ∧ e = .badConn ∧ docCause e = none := by
  obtain ⟨a, w', h1, h2⟩ := Out.of_test (o := Op.close.run script (closeN script 1) { scriptConn [] with sockCloseErr := true })
    (p := fun a _ => match a with | some e => e.isBareBadConn | none => false) (by decide +kernel)
  cases a with
  | none => cases h2
  | some e => obtain rfl := bare_badConn_eq h2; exact ⟨_, w', h1, rfl, rfl⟩

end Bolt
