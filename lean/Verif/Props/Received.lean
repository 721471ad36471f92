import Verif.Props.Surface
import Verif.Props.Reuse
import Verif.Props.Blame
import Verif.Proofs.Inbox

/-!
# C61 when Next returns no error, C81 for writes, C83 for connections
-/

namespace Bolt

/-! ## C61 -/

theorem storeRow_sound (vs : List Val) : ∀ (i : Nat) (dest out : List DVal), storeRow i dest vs = .ok out →
    out.length = dest.length ∧ (vs ≠ [] → i + vs.length ≤ dest.length) ∧ (∀ j, j < i ∨ i + vs.length ≤ j → out[j]? = dest[j]?) ∧
      ∀ (j : Nat) (v : Val), vs[j]? = some v → ∃ d, out[i + j]? = some d ∧ sqlValue v = .ok d := by
  induction vs with
  | nil => intro i dest out h; cases h; exact ⟨rfl, fun h => absurd rfl h, fun _ _ => rfl, fun j v h => by simp at h⟩
  | cons v vs ih =>
    intro i dest out h
    rw [storeRow] at h
    cases hs : sqlValue v with
    | error e => rw [hs] at h; simp only at h; split at h <;> cases h
    | ok d =>
      rw [hs] at h
      simp only at h
      split at h
      · next hi =>
        obtain ⟨h1, h2, h3, h4⟩ := ih _ _ _ h
        rw [List.length_set] at h1 h2
        refine ⟨h1, fun _ => ?_, ?_, ?_⟩
        · by_cases hv : vs = []
          · subst hv; simp; omega
          · have := h2 hv; simp; omega
        · intro j hj
          simp only [List.length_cons] at hj
          rw [h3 j (by omega), List.getElem?_set_ne (by omega)]
        · intro j u hu
          cases j with
          | zero =>
            simp only [List.getElem?_cons_zero, Option.some.injEq] at hu
            subst hu
            exact ⟨d, by rw [Nat.add_zero, h3 i (.inl (by omega)), List.getElem?_set_self hi], hs⟩
          | succ j =>
            simp only [List.getElem?_cons_succ] at hu
            obtain ⟨d', h8, h9⟩ := h4 j u hu
            exact ⟨d', by rw [← h8]; congr 1; omega, h9⟩
      · cases h

/-- What Next stores for a value: the scalar itself, or what Marshal makes of it. -/
def StoredAs (v : Val) (d : DVal) : Prop :=
  IsScalar v ∧ d = .plain v ∨ IsContainer v ∧ (marshal v).2 = none ∧ d = .bytes (marshal v).1

theorem sqlValue_sound {v : Val} {d : DVal} (h : sqlValue v = .ok d) : StoredAs v d := by
  have hm : ∀ {d}, sqlMarshal v = .ok d → (marshal v).2 = none ∧ d = .bytes (marshal v).1 := by
    intro d h
    unfold sqlMarshal at h
    split at h
    · next b hb => cases h; rw [hb]; exact ⟨rfl, rfl⟩
    · cases h
  unfold sqlValue at h
  split at h
  · exact .inr ⟨trivial, hm h⟩
  · exact .inr ⟨trivial, hm h⟩
  · exact .inr ⟨trivial, hm h⟩
  · exact .inr ⟨trivial, hm h⟩
  · exact .inr ⟨trivial, hm h⟩
  · exact .inr ⟨trivial, hm h⟩
  all_goals cases h
  all_goals exact .inl ⟨trivial, rfl⟩

/-- C61: whenever Next returns no error, NextNeo delivered a row, `dest` had room for it, and every value of the row is in
its cell; the other cells keep their contents. No value is left out. -/
theorem c61_complete {σ : Type} (P : Peer σ) (close : M σ (Option GoErr)) (r : Nat) (dest out : List DVal) (w w' : World σ)
    (h : sqlNext P close r dest w = .ok (.ok out) w') :
    ∃ vs md, nextNeo P close r w = .ok (vs, md, none) w' ∧ (vs.getD []).length ≤ dest.length ∧ out.length = dest.length ∧
      (∀ (j : Nat) (v : Val), (vs.getD [])[j]? = some v → ∃ d, out[j]? = some d ∧ StoredAs v d) ∧
      ∀ j, (vs.getD []).length ≤ j → out[j]? = dest[j]? := by
  unfold sqlNext at h
  cases hn : nextNeo P close r w with
  | ok a w1 =>
    obtain ⟨vs, md, e⟩ := a
    have h' := (mbind_ok hn).symm.trans h
    cases e with
    | some e => cases h'
    | none =>
      simp only at h'
      cases hs : storeRow 0 dest (vs.getD []) with
      | error f => rw [hs] at h'; cases f <;> cases h'
      | ok d =>
        rw [hs] at h'
        cases h'
        obtain ⟨h1, h2, h3, h4⟩ := storeRow_sound _ _ _ _ hs
        refine ⟨vs, md, rfl, ?_, h1, fun j v hv => ?_, fun j hj => h3 j (.inr (by omega))⟩
        · by_cases hv : vs.getD [] = []
          · rw [hv]; exact Nat.zero_le _
          · have := h2 hv; omega
        · obtain ⟨d, h5, h6⟩ := h4 j v hv
          exact ⟨d, by rw [← h5]; congr 1; omega, sqlValue_sound h6⟩
  | panic p w1 => rw [mbind_run, hn] at h; cases h
  | deep w1 => rw [mbind_run, hn] at h; cases h

/-- A row that Next stores. -/
example : ∃ out, storeRow 0 [.plain .nil, .plain .nil] [.str [97], .list []] = .ok out ∧ StoredAs (.list []) (.bytes (marshal (.list [])).1) :=
  ⟨_, rfl, .inr ⟨trivial, rfl, rfl⟩⟩

/-! ## C81 -/

theorem encodeTo_stream {cs : Nat} {s : Sink} {v : Val} {e : GoErr} (hv : v.Supported) (h : (encodeTo cs s v).2 = some e) : e.isBadConn = true := by
  unfold encodeTo at h
  simp only [(acc v).mpr hv] at h
  split at h
  · cases h; rfl
  · split at h
    · cases h
    · cases h; rfl

/-- C81 for writing: a message that can be encoded is sent on a socket that takes `k` more bytes: when that is not enough,
the innermost error of sending is `driver.ErrBadConn`; when it is, there is no error. -/
theorem c81_write {σ : Type} (P : Peer σ) (w : World σ) (v : Val) (hv : v.Supported) {k : Nat} (hk : w.sink.budget = some k) :
    ∃ full e w', (encodeTo w.chunkSize ⟨w.sink.out, none⟩ v).1.out = w.sink.out ++ full ∧ send P v w = .ok e w' ∧
      (full.length ≤ k → e = none) ∧ (k < full.length → ∃ x, e = some x ∧ x.isBadConn = true) := by
  obtain ⟨full, h1, -, h3⟩ := c10_failed_write_reported w.chunkSize k w.sink.out v
  have hs : w.sink = ⟨w.sink.out, some k⟩ := by rw [← hk]
  rw [← hs, (c08_rejects_iff w.chunkSize w.sink.out v).mpr hv] at h3
  refine ⟨full, _, _, h1, rfl, fun h => h3.mpr ⟨rfl, h⟩, fun h => ?_⟩
  cases he : (encodeTo w.chunkSize w.sink v).2 with
  | none => have := (h3.mp he).2; omega
  | some x => exact ⟨x, rfl, encodeTo_stream hv he⟩

/-- RESET on a socket that takes three more bytes. -/
example : ∃ x w', send script .reset { scriptConn [] with sink := ⟨[], some 3⟩ } = .ok (some x) w' ∧ x.isBadConn = true := by
  obtain ⟨full, e, w', h1, h2, -, h4⟩ := c81_write script { scriptConn [] with sink := ⟨[], some 3⟩ } .reset (by simp [Val.Supported, Val.All, Val.SupportedHere, Val.sizes]) rfl
  have : full = [0, 2, 0xB0, 0x0F, 0, 0] := by
    have h : (encodeTo (scriptConn []).chunkSize ⟨[], none⟩ .reset).1.out = [0, 2, 0xB0, 0x0F, 0, 0] := by decide +kernel
    exact h1.symm.trans h
  obtain ⟨x, rfl, h⟩ := h4 (by rw [this]; decide)
  exact ⟨x, w', h2, h⟩

/-! ## C83 -/

/-- C83 for a connection: on any byte stream in any pieces, reading the next answer returns what the next Decode does, the
same value, error or panic, and leaves the connection at the same place of the stream. A network error is passed on as
`driver.ErrBadConn` and recorded. Beside the error of a SUCCESS message there is an empty one, `SuccessMessage{}`. -/
theorem c83_connection {w : World Bool} {r r' : Source} {x : Except Fault Val} (h : Holds w r) (hd : decodeFrom r = (x, r')) :
    match x with
    | .ok v => ∃ w', recv mute w = .ok (v, none) w' ∧ Holds w' r' ∧ w'.connErr = w.connErr
    | .error (.err e) => ∃ e' w', recv mute w = .ok (if r.half then .success [] else .nil, some e') w' ∧
        (Holds w' r' ∧ e' = e ∧ w'.connErr = w.connErr ∨
         r.atEOF = false ∧ e' = readErr .badConn ∧ w'.connErr = true ∧ w'.inbox = [] ∧ w'.srv = false)
    | .error (.panic p) => ∃ w', recv mute w = .panic p w'
    | .error .fuel => False :=
  recv_decodes h hd

set_option maxRecDepth 100000 in
/-- NULL in one chunk that arrive in three pieces. -/
example (w : World Bool) (hc : w.closed = false) (hs : w.srv = true) (hi : w.inbox = Source.items ⟨[[0, 1], [0xC0, 0], [0]], .eof⟩) :
    ∃ w', recv mute w = .ok (.nil, none) w' :=
  have ⟨w', h, _⟩ := c83_connection (x := .ok .nil) (r' := ⟨[], .eof⟩) ⟨by unfold Source.NonEmpty; decide, hi, hs, hc⟩ rfl
  ⟨w', h⟩

end Bolt
