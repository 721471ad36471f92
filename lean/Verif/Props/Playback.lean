import Verif.Props.Recorder

/-! C94: what playback notices of a program that does not do what the recorded one did. -/

namespace Bolt.Recording

/-- A call that transferred nothing and failed. -/
def Seen.Refused : Seen → Prop
  | .read got err => got = [] ∧ err ≠ none
  | .wrote n err => n = 0 ∧ err ≠ none

/-- The player stands before the recording of `cs`. -/
def Stands (p : Player) (cs : List Call) : Prop :=
  (∃ done e d cm es, p = at' done e d cm es ∧ recordAll [e] cs = .ok ({ e with data := e.data ++ d, completed := cm } :: es)) ∨
  (p.cur = p.events.length ∧ p.events = [] ∧ cs = [])

/-- The event left for the next recorded call holds the bytes of that call. -/
theorem stands_step {p : Player} {c : Call} {cs : List Call} (h : Stands p (c :: cs)) (hf : ∀ x ∈ c :: cs, Full x) :
    (∃ ev, p.events[p.cur]? = some ev ∧ ev.isWrite = c.isWrite ∧ c.bytes <+: ev.data) ∧
    ∃ q, p.call c = (c.seen, q) ∧ Stands q cs := by
  simp only [List.forall_mem_cons] at hf
  rcases h with ⟨done, e, d, cm, es, rfl, hr⟩ | ⟨_, _, h⟩
  · have h0 := recordCall_last hf.1 [] e
    simp only [List.nil_append] at h0
    simp only [recordAll, h0] at hr
    have hb := full_bytes hf.1
    cases hj : joins e c with
    | true =>
      simp only [hj, if_true] at hr
      have hw : e.isWrite = c.isWrite := by
        simp only [joins, Bool.not_eq_true', Bool.or_eq_false_iff, bne_eq_false_iff_eq] at hj
        exact hj.2
      obtain ⟨d', cm', es', _, h2, _⟩ := recordAll_prefix cs hf.2 [] (extend e c)
      rw [h2] at hr
      simp only [Except.ok.injEq, List.cons.injEq] at hr
      obtain ⟨h3, rfl⟩ := hr
      have h4 : d = c.bytes ++ d' := by
        have := congrArg Event.data h3
        simp only [extend, List.append_assoc, List.append_cancel_left_eq] at this
        exact this.symm
      have h5 : cm' = cm := congrArg Event.completed h3
      subst h4 h5
      have hne : c.bytes ++ d' ≠ [] := by
        intro h0
        have : c.bytes.length = 0 := by rw [(List.append_eq_nil_iff.mp h0).1]; rfl
        omega
      refine ⟨⟨{ e with data := c.bytes ++ d', completed := cm' }, ?_, hw, List.prefix_append _ _⟩,
        _, call_at done e c hf.1 d' cm' es' hw, Or.inl ⟨done, extend e c, d', cm', es', rfl, h2⟩⟩
      simp only [at', if_neg hne]
      simp
    | false =>
      simp only [hj, Bool.false_eq_true, if_false] at hr
      obtain ⟨d', cm', es', h1, h2, _⟩ := recordAll_prefix cs hf.2 [e] (fresh c)
      simp only [List.cons_append, List.nil_append] at h1
      rw [h1] at hr
      simp only [Except.ok.injEq, List.cons.injEq] at hr
      obtain ⟨h3, rfl⟩ := hr
      have hd : d = [] := by
        have : e.data = e.data ++ d := congrArg Event.data h3
        exact List.self_eq_append_right.mp this
      subst hd
      have hne : c.bytes ++ d' ≠ [] := by
        intro h0
        have : c.bytes.length = 0 := by rw [(List.append_eq_nil_iff.mp h0).1]; rfl
        omega
      have hs : at' done e [] cm ({ fresh c with data := (fresh c).data ++ d', completed := cm' } :: es') =
          at' (done ++ [{ e with data := [], completed := cm }]) (fresh c) (c.bytes ++ d') cm' es' := by
        simp only [at', if_neg hne, fresh]
        simp
      rw [hs]
      refine ⟨⟨{ fresh c with data := c.bytes ++ d', completed := cm' }, ?_, rfl, List.prefix_append _ _⟩,
        _, call_at _ (fresh c) c hf.1 d' cm' es' rfl, Or.inl ⟨_, fresh c, d', cm', es', rfl, h2⟩⟩
      simp only [at', if_neg hne]
      simp
  · cases h

theorem stands_first (cs : List Call) (hf : ∀ c ∈ cs, Full c) :
    ∃ evs, recordAll [] cs = .ok evs ∧ Stands ⟨evs, 0⟩ cs := by
  cases cs with
  | nil => exact ⟨[], rfl, Or.inr ⟨rfl, rfl, rfl⟩⟩
  | cons c cs =>
    have hf' := hf
    simp only [List.forall_mem_cons] at hf
    obtain ⟨d, cm, es, _, h2, h3⟩ := recordAll_prefix cs hf.2 [] (fresh c)
    refine ⟨{ fresh c with data := (fresh c).data ++ d, completed := cm } :: es, ?_, Or.inl
      ⟨[], ⟨[], c.isWrite, false, none⟩, c.bytes ++ d, cm, es, ?_, ?_⟩⟩
    · simp only [recordAll, recordCall_nil hf.1, h2]
    · have hb := full_bytes hf.1
      have hne : c.bytes ++ d ≠ [] := by
        intro h0
        have : c.bytes.length = 0 := by rw [(List.append_eq_nil_iff.mp h0).1]; rfl
        omega
      simp only [at', if_neg hne, fresh]
      simp
    · have h0 := recordCall_last hf.1 [] ⟨[], c.isWrite, false, none⟩
      simp only [List.nil_append] at h0
      have hj : joins ⟨[], c.isWrite, false, none⟩ c = true := by simp [joins]
      have he : extend ⟨[], c.isWrite, false, none⟩ c = fresh c := by simp [extend, fresh]
      simp only [recordAll, h0, hj, if_true, he, h2]
      simp [fresh]

theorem stands_replay (pre post : List Call) (hf : ∀ c ∈ pre ++ post, Full c) (p : Player) (h : Stands p (pre ++ post)) :
    ∃ q, p.replay pre = (pre.map Call.seen, q) ∧ Stands q post := by
  induction pre generalizing p with
  | nil => exact ⟨p, rfl, h⟩
  | cons c pre ih =>
    obtain ⟨_, q, h1, h2⟩ := stands_step h hf
    obtain ⟨r, h3, h4⟩ := ih (fun x hx => hf x (List.mem_cons_of_mem _ hx)) q h2
    exact ⟨r, by simp only [Player.replay, h1, h3, List.map_cons], h4⟩

theorem stands_nil {p : Player} (h : Stands p []) : p.events[p.cur]? = none ∧ p.close = none := by
  rcases h with ⟨done, e, d, cm, es, rfl, hr⟩ | ⟨h1, h2, _⟩
  · simp only [recordAll, Except.ok.injEq, List.cons.injEq] at hr
    obtain ⟨h3, rfl⟩ := hr
    have hd : d = [] := by
      have : e.data = e.data ++ d := congrArg Event.data h3
      exact List.self_eq_append_right.mp this
    subst hd
    constructor
    · simp [at']
    · simp [Player.close, at']
  · constructor
    · rw [h1]; simp
    · simp [Player.close, h2]

theorem refused_none {p : Player} (h : p.events[p.cur]? = none) (c : Call) : (p.call c).1.Refused ∧ (p.call c).2 = p := by
  cases c with
  | read n got err => simp [Player.call, Player.read, h, Seen.Refused]
  | write data n err => simp [Player.call, Player.write, h, Seen.Refused]

theorem refused_other {p : Player} {ev : Event} (h : p.events[p.cur]? = some ev) (c : Call) (hw : ev.isWrite ≠ c.isWrite) :
    (p.call c).1.Refused ∧ (p.call c).2 = p := by
  cases c with
  | read n got err =>
    simp only [Call.isWrite, ne_eq, Bool.not_eq_false] at hw
    simp [Player.call, Player.read, h, hw, Seen.Refused]
  | write data n err =>
    simp only [Call.isWrite, ne_eq, Bool.not_eq_true] at hw
    simp [Player.call, Player.write, h, hw, Seen.Refused]

/-- C94, proved part: of a recorded session in which every call transferred what it was asked to (at least two bytes,
no error), play back any beginning `pre`. What it sees is what was recorded. If nothing is left, Close reports no
error, and every further call fails, transfers nothing and changes nothing. If a call `c` is left, Close reports an
error, and every call in the other direction than `c` fails, transfers nothing and changes nothing. Missing: a call in
the direction of `c` that sends other bytes (`c94_false`). -/
theorem c94_departs_partial (pre post : List Call) (hf : ∀ c ∈ pre ++ post, Full c) :
    ∃ evs q, recordAll [] (pre ++ post) = .ok evs ∧ (Player.mk evs 0).replay pre = (pre.map Call.seen, q) ∧
      match post with
      | [] => q.close = none ∧ ∀ x, (q.call x).1.Refused ∧ (q.call x).2 = q
      | c :: _ => q.close ≠ none ∧ ∀ x : Call, x.isWrite ≠ c.isWrite → (q.call x).1.Refused ∧ (q.call x).2 = q := by
  obtain ⟨evs, h1, h2⟩ := stands_first (pre ++ post) hf
  obtain ⟨q, h3, h4⟩ := stands_replay pre post hf _ h2
  refine ⟨evs, q, h1, h3, ?_⟩
  cases post with
  | nil => exact ⟨(stands_nil h4).2, fun x => refused_none (stands_nil h4).1 x⟩
  | cons c post =>
    obtain ⟨⟨ev, h5, h6, _⟩, _⟩ := stands_step h4 (fun x hx => hf x (List.mem_append_right _ hx))
    refine ⟨?_, fun x hx => refused_other h5 x (by rw [h6]; exact hx.symm)⟩
    unfold Player.close
    obtain ⟨hlt, _⟩ := List.getElem?_eq_some_iff.mp h5
    cases hl : q.events.getLast? with
    | none => rw [List.getLast?_eq_none_iff] at hl; rw [hl] at hlt; simp at hlt
    | some e => simp only; rw [if_pos (by omega)]; simp

/-- C94 as stated is false, and for every recording: what a program writes is not looked at, only how much. Two
programs that write other bytes of the same length see the same answers and leave the player the same. -/
theorem c94_false (p : Player) (data data' : Bytes) (hl : data.length = data'.length) : p.write data = p.write data' := by
  simp only [Player.write, hl]

/-- C94, proved part: a call in the recorded direction that asks for more than its event holds (at least the bytes of
the recorded call) transfers what the event holds and fails, and a Close after it reports an error. -/
theorem c94_more_partial (pre : List Call) (c : Call) (post : List Call) (hf : ∀ x ∈ pre ++ c :: post, Full x) :
    ∃ evs q d, recordAll [] (pre ++ c :: post) = .ok evs ∧ (Player.mk evs 0).replay pre = (pre.map Call.seen, q) ∧
      c.bytes <+: d ∧ match c with
      | .read .. => ∀ n, d.length < n → (q.read n).1.1 = d ∧ (q.read n).1.2 ≠ none ∧ (q.read n).2.close ≠ none
      | .write .. => ∀ b : Bytes, d.length < b.length → (q.write b).1.1 = d.length ∧ (q.write b).1.2 ≠ none ∧
          (q.write b).2.close ≠ none := by
  obtain ⟨evs, h1, h2⟩ := stands_first (pre ++ c :: post) hf
  obtain ⟨q, h3, h4⟩ := stands_replay pre (c :: post) hf _ h2
  obtain ⟨⟨ev, h5, h6, h7⟩, _⟩ := stands_step h4 (fun x hx => hf x (List.mem_append_right _ hx))
  refine ⟨evs, q, ev.data, h1, h3, h7, ?_⟩
  obtain ⟨hlt, _⟩ := List.getElem?_eq_some_iff.mp h5
  have hc : (Player.mk (q.events.set q.cur { ev with data := [] }) q.cur).close ≠ none := by
    unfold Player.close
    cases hl : (q.events.set q.cur { ev with data := [] }).getLast? with
    | none =>
      rw [List.getLast?_eq_none_iff] at hl
      have := congrArg List.length hl
      simp only [List.length_set, List.length_nil] at this
      omega
    | some e =>
      simp only
      rw [if_pos (by simp only [List.length_set]; omega)]
      simp
  cases c with
  | read m got err =>
    intro n hn
    simp only [Call.isWrite] at h6
    simp only [h6] at hc
    simp only [Player.read, h5, h6, Bool.false_eq_true, if_false, if_pos hn]
    exact ⟨trivial, by simp, hc⟩
  | write data m err =>
    intro b hn
    simp only [Call.isWrite] at h6
    simp only [h6] at hc
    simp only [Player.write, h5, h6, Bool.not_true, Bool.false_eq_true, if_false, if_pos hn]
    exact ⟨trivial, by simp, hc⟩

/-- C94 is false: a recorded session of one write and one read, and another program that writes something else. It sees
no error anywhere. -/
theorem c94_false_session : ∃ cs evs other p, recordAll [] cs = .ok evs ∧ reload evs = some evs ∧
    cs = [.write [1, 2, 3] 3 none, .read 2 [8, 9] none] ∧ other = [.write [4, 5, 6] 3 none, .read 2 [8, 9] none] ∧
    (Player.mk evs 0).replay other = ([.wrote 3 none, .read [8, 9] none], p) ∧ p.close = none :=
  ⟨_, _, _, _, rfl, rfl, rfl, rfl, rfl, rfl⟩

/-- The error of a call. -/
def Call.err : Call → Option GoErr
  | .read _ _ e => e
  | .write _ _ e => e

/-- C60: an error is kept as the error of the last event, behind everything its call transferred, and what is
transferred next in either direction is an event of its own, without that error. -/
theorem c60_after_error_partial (evs evs1 : List Event) (c c' : Call) (e : GoErr) (he : c.err = some e)
    (h : recordCall evs c = .ok evs1) (hf : Full c') :
    (∃ l ev, evs1 = l ++ [ev] ∧ ev.err = some e ∧ ev.isWrite = c.isWrite ∧ c.bytes <:+ (evs1.map Event.data).flatten) ∧
      ∃ ev', recordCall evs1 c' = .ok (evs1 ++ [ev']) ∧ ev'.data = c'.bytes ∧ ev'.isWrite = c'.isWrite ∧ ev'.err = none := by
  have key : ∀ evs w, ∃ l ev, withEvent evs w = l ++ [ev] ∧ ev.isWrite = w ∧
      ((withEvent evs w).map Event.data).flatten = (evs.map Event.data).flatten := by
    intro evs w
    unfold withEvent
    rcases List.eq_nil_or_concat evs with rfl | ⟨l, x, rfl⟩
    · exact ⟨[], newEvent w, rfl, rfl, rfl⟩
    · rw [List.concat_eq_append]
      simp only [List.getLast?_append, List.getLast?_singleton, Option.some_or]
      cases hx : (x.completed || x.isWrite != w) with
      | true => exact ⟨l ++ [x], newEvent w, by simp, rfl, by simp [newEvent]⟩
      | false =>
        simp only [Bool.or_eq_false_iff, bne_eq_false_iff_eq] at hx
        exact ⟨l, x, by simp, hx.2, by simp⟩
  have keyErr : ∀ evs w, ∃ l ev, recordErr evs e w = l ++ [ev] ∧ ev.err = some e ∧ ev.isWrite = w ∧ ev.completed = true ∧
      ((recordErr evs e w).map Event.data).flatten = (evs.map Event.data).flatten := by
    intro evs w
    obtain ⟨l, ev, h1, h2, h3⟩ := key evs w
    refine ⟨l, { ev with err := some e, completed := true }, ?_, rfl, h2, rfl, ?_⟩
    · simp [recordErr, h1, onLast]
    · rw [← h3, h1]; simp [recordErr, h1, onLast]
  have main : ∀ b w, note evs b w (some e) = .ok evs1 → ∃ l ev, evs1 = l ++ [ev] ∧ ev.err = some e ∧ ev.isWrite = w ∧
      ev.completed = true ∧ b <:+ (evs1.map Event.data).flatten := by
    intro b w hn
    unfold note noteErr at hn
    by_cases hb : b = []
    · rw [if_pos hb] at hn
      injection hn with hn
      obtain ⟨l, ev, h1, h2, h3, h4, _⟩ := keyErr evs w
      have hn : recordErr evs e w = evs1 := hn
      rw [hn] at h1
      exact ⟨l, ev, h1, h2, h3, h4, hb ▸ List.nil_suffix⟩
    · rw [if_neg hb] at hn
      unfold record at hn
      split at hn
      · rename_i evs' hr
        split at hr
        · cases hr
        injection hr with hr
        injection hn with hn
        obtain ⟨l, ev, h1, h2, h3, h4, h5⟩ := keyErr evs' w
        have hn : recordErr evs' e w = evs1 := hn
        rw [hn] at h1 h5
        refine ⟨l, ev, h1, h2, h3, h4, ?_⟩
        obtain ⟨l0, ev0, h6, _⟩ := key evs w
        rw [h5, ← hr, h6]
        simp only [onLast, List.getLast?_append, List.getLast?_singleton, Option.some_or, List.dropLast_concat,
          List.map_append, List.map_cons, List.map_nil, List.flatten_append, List.flatten_cons, List.flatten_nil,
          List.append_nil, ← List.append_assoc]
        exact List.suffix_append _ _
      · cases hn
  have fin : ∃ l ev, evs1 = l ++ [ev] ∧ ev.err = some e ∧ ev.isWrite = c.isWrite ∧ ev.completed = true ∧
      c.bytes <:+ (evs1.map Event.data).flatten := by
    cases c with
    | read n got err => simp only [Call.err] at he; subst he; exact main _ _ h
    | write data n err => simp only [Call.err] at he; subst he; exact main _ _ h
  obtain ⟨l, ev, h1, h2, h3, h4, h5⟩ := fin
  refine ⟨⟨l, ev, h1, h2, h3, h5⟩, fresh c', ?_, rfl, rfl, rfl⟩
  rw [h1, recordCall_last hf]
  simp [joins, h4]

/-- A session whose second read failed: three events, the error in the second. -/
example : ∃ evs, recordAll [] [.write [1, 2] 2 none, .read 4 [3, 4] (some .eof), .read 2 [5, 6] none] = .ok evs ∧
    evs.map Event.data = [[1, 2], [3, 4], [5, 6]] ∧ evs.map Event.err = [none, some .eof, none] := ⟨_, rfl, rfl, rfl⟩

/-- Playing back a session of a write and a read: closing after the write is an error, writing again is refused. -/
example : ∃ evs q, recordAll [] [.write [1, 2, 3] 3 none, .read 2 [8, 9] none] = .ok evs ∧
    (Player.mk evs 0).replay [.write [1, 2, 3] 3 none] = ([.wrote 3 none], q) ∧ q.close ≠ none ∧
    (q.call (.write [4] 1 none)).1.Refused := by
  obtain ⟨evs, q, h1, h2, h3, h4⟩ := c94_departs_partial [.write [1, 2, 3] 3 none] [.read 2 [8, 9] none] (by simp [Full])
  exact ⟨evs, q, h1, h2, h3, (h4 _ (by simp [Call.isWrite])).1⟩

end Bolt.Recording
