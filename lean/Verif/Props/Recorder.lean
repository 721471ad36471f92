import Verif.Model.Recorder

/-! C60: a recorded session replays. -/

namespace Bolt.Recording

/-- The call transferred everything it was asked to, at least two bytes, without an error. -/
def Full : Call → Prop
  | .read n got err => got.length = n ∧ 2 ≤ n ∧ err = none
  | .write data n err => n = data.length ∧ 2 ≤ n ∧ err = none

/-- The bytes a call transferred. -/
def Call.bytes : Call → Bytes
  | .read _ got _ => got
  | .write data n _ => data.take n

/-- The direction of a call. -/
def Call.isWrite : Call → Bool
  | .read .. => false
  | .write .. => true

theorem full_bytes {c : Call} (h : Full c) : 2 ≤ c.bytes.length := by
  cases c with
  | read n got err => obtain ⟨h1, h2, _⟩ := h; simp only [Call.bytes]; omega
  | write data n err => obtain ⟨h1, h2, _⟩ := h; simp only [Call.bytes, List.length_take]; omega

/-- Recording a full call. -/
theorem recordCall_full {c : Call} (h : Full c) (evs : List Event) :
    recordCall evs c = .ok (onLast (fun e => { e with data := e.data ++ c.bytes, completed := e.completed || ends00 c.bytes })
      (withEvent evs c.isWrite)) := by
  have hb := full_bytes h
  have hne : c.bytes ≠ [] := by intro h0; rw [h0] at hb; simp at hb
  have key : ∀ w, note evs c.bytes w none = .ok (onLast (fun e => { e with data := e.data ++ c.bytes, completed := e.completed || ends00 c.bytes })
      (withEvent evs w)) := by
    intro w
    unfold note
    rw [if_neg hne]
    unfold record
    rw [if_neg (by omega)]
    rfl
  cases c with
  | read n got err => obtain ⟨h1, h2, rfl⟩ := h; exact key false
  | write data n err => obtain ⟨h1, h2, rfl⟩ := h; exact key true

/-- The last event after recording the call, given the last one before. -/
def extend (e : Event) (c : Call) : Event := { e with data := e.data ++ c.bytes, completed := e.completed || ends00 c.bytes }

/-- An event for the call alone. -/
def fresh (c : Call) : Event := ⟨c.bytes, c.isWrite, ends00 c.bytes, none⟩

/-- The call goes into the last event. -/
def joins (e : Event) (c : Call) : Bool := !(e.completed || e.isWrite != c.isWrite)

theorem recordCall_last {c : Call} (h : Full c) (p : List Event) (e : Event) :
    recordCall (p ++ [e]) c = .ok (if joins e c then p ++ [extend e c] else p ++ [e, fresh c]) := by
  rw [recordCall_full h]
  unfold withEvent joins
  simp only [List.getLast?_append, List.getLast?_singleton, Option.some_or]
  cases hj : (e.completed || e.isWrite != c.isWrite) with
  | true =>
    simp [onLast, newEvent, fresh]
  | false =>
    simp [onLast, extend]

theorem recordCall_nil {c : Call} (h : Full c) : recordCall [] c = .ok [fresh c] := by
  rw [recordCall_full h]
  simp [withEvent, onLast, newEvent, fresh]

/-- Recording continues behind what is there. -/
theorem recordAll_prefix (cs : List Call) (hf : ∀ c ∈ cs, Full c) (p : List Event) (e : Event) :
    ∃ d cm es, recordAll (p ++ [e]) cs = .ok (p ++ { e with data := e.data ++ d, completed := cm } :: es) ∧
      recordAll [e] cs = .ok ({ e with data := e.data ++ d, completed := cm } :: es) ∧
      (∀ x ∈ es, x.err = none) := by
  induction cs generalizing p e with
  | nil => exact ⟨[], e.completed, [], by simp [recordAll], by simp [recordAll], by simp⟩
  | cons c cs ih =>
    simp only [List.forall_mem_cons] at hf
    have h0 := recordCall_last hf.1 [] e
    simp only [List.nil_append] at h0
    simp only [recordAll, recordCall_last hf.1, h0]
    cases hj : joins e c with
    | true =>
      simp only [if_true]
      obtain ⟨d, cm, es, h1, h2, h3⟩ := ih hf.2 p (extend e c)
      refine ⟨c.bytes ++ d, cm, es, ?_, ?_, h3⟩
      · rw [h1]; simp [extend]
      · rw [h2]; simp [extend]
    | false =>
      simp only [Bool.false_eq_true, if_false]
      obtain ⟨d, cm, es, h1, h2, h3⟩ := ih hf.2 (p ++ [e]) (fresh c)
      obtain ⟨d', cm', es', h1', h2', h3'⟩ := ih hf.2 [e] (fresh c)
      rw [h2] at h2'
      refine ⟨[], e.completed, { fresh c with data := (fresh c).data ++ d, completed := cm } :: es, ?_, ?_, ?_⟩
      · simp only [List.append_assoc, List.cons_append, List.nil_append] at h1
        rw [h1]; simp
      · simp only [List.cons_append, List.nil_append] at h1'
        rw [h1']
        simp only [Except.ok.injEq] at h2'
        rw [← h2']
        simp
      · simp only [List.forall_mem_cons]; exact ⟨rfl, h3⟩

/-- The player stands before `d`, which is left of the event after `done`, or behind that event if nothing is left. -/
def at' (done : List Event) (e : Event) (d : Bytes) (cm : Bool) (es : List Event) : Player :=
  ⟨done ++ { e with data := d, completed := cm } :: es, if d = [] then done.length + 1 else done.length⟩

theorem call_at (done : List Event) (e : Event) (c : Call) (hf : Full c) (d : Bytes) (cm : Bool) (es : List Event)
    (hw : e.isWrite = c.isWrite) :
    (at' done e (c.bytes ++ d) cm es).call c = (c.seen, at' done e d cm es) := by
  have hb := full_bytes hf
  have hne : c.bytes ++ d ≠ [] := by
    intro h0
    have : c.bytes.length = 0 := by rw [(List.append_eq_nil_iff.mp h0).1]; rfl
    omega
  have hget : (at' done e (c.bytes ++ d) cm es).events[(at' done e (c.bytes ++ d) cm es).cur]? =
      some { e with data := c.bytes ++ d, completed := cm } := by
    simp only [at', if_neg hne]
    simp
  have htake : (at' done e (c.bytes ++ d) cm es).take { e with data := c.bytes ++ d, completed := cm } c.bytes.length =
      at' done e d cm es := by
    simp only [Player.take, at', if_neg hne]
    simp
  cases c with
  | read n got err =>
    obtain ⟨h1, h2, rfl⟩ := hf
    simp only [Call.bytes, Call.isWrite] at *
    rw [hw] at hget htake
    simp only [Player.call, Player.read, hget]
    simp only [Bool.false_eq_true, if_false, List.length_append]
    rw [if_neg (by omega)]
    simp only [Call.seen]
    rw [← h1, htake]
    simp
  | write data n err =>
    obtain ⟨h1, h2, rfl⟩ := hf
    subst h1
    simp only [Call.bytes, Call.isWrite, List.take_length] at *
    rw [hw] at hget htake
    simp only [Player.call, Player.write, hget]
    simp only [Bool.not_true, Bool.false_eq_true, if_false, List.length_append]
    rw [if_neg (by omega)]
    simp only [Call.seen]
    rw [htake]

/-- Replaying from the point the recording had reached. -/
theorem replay_from (cs : List Call) (hf : ∀ c ∈ cs, Full c) (done : List Event) (e : Event) (d : Bytes) (cm : Bool)
    (es : List Event) (hr : recordAll [e] cs = .ok ({ e with data := e.data ++ d, completed := cm } :: es)) :
    ∃ p, (at' done e d cm es).replay cs = (cs.map Call.seen, p) ∧ p.cur = p.events.length ∧
      ∃ l x, p.events = l ++ [x] ∧ x.data = [] := by
  induction cs generalizing done e d cm es with
  | nil =>
    simp only [recordAll, Except.ok.injEq, List.cons.injEq] at hr
    obtain ⟨h1, rfl⟩ := hr
    have hd : d = [] := by
      have : e.data = e.data ++ d := congrArg Event.data h1
      exact List.self_eq_append_right.mp this
    subst hd
    exact ⟨_, rfl, by simp [at'], done, _, rfl, rfl⟩
  | cons c cs ih =>
    simp only [List.forall_mem_cons] at hf
    have h0 := recordCall_last hf.1 [] e
    simp only [List.nil_append] at h0
    simp only [recordAll, h0] at hr
    cases hj : joins e c with
    | true =>
      simp only [hj, if_true] at hr
      have hw : e.isWrite = c.isWrite := by
        simp only [joins, Bool.not_eq_true', Bool.or_eq_false_iff, bne_eq_false_iff_eq] at hj
        exact hj.2
      obtain ⟨d', cm', es', _, h2, _⟩ := recordAll_prefix cs hf.2 [] (extend e c)
      rw [h2] at hr
      simp only [Except.ok.injEq, List.cons.injEq] at hr
      obtain ⟨h3, rfl⟩ := hr
      have h4 : d = c.bytes ++ d' := by
        have := congrArg Event.data h3
        simp only [extend, List.append_assoc, List.append_cancel_left_eq] at this
        exact this.symm
      have h5 : cm' = cm := congrArg Event.completed h3
      subst h4 h5
      obtain ⟨p, h6, h7⟩ := ih hf.2 done (extend e c) d' cm' es' h2
      refine ⟨p, ?_, h7⟩
      simp only [Player.replay, call_at done e c hf.1 d' cm' es' hw, List.map_cons]
      have : at' done e d' cm' es' = at' done (extend e c) d' cm' es' := rfl
      rw [this, h6]
    | false =>
      simp only [hj, Bool.false_eq_true, if_false] at hr
      obtain ⟨d', cm', es', h1, h2, _⟩ := recordAll_prefix cs hf.2 [e] (fresh c)
      simp only [List.cons_append, List.nil_append] at h1
      rw [h1] at hr
      simp only [Except.ok.injEq, List.cons.injEq] at hr
      obtain ⟨h3, rfl⟩ := hr
      have hd : d = [] := by
        have : e.data = e.data ++ d := congrArg Event.data h3
        exact List.self_eq_append_right.mp this
      subst hd
      obtain ⟨p, h6, h7⟩ := ih hf.2 (done ++ [{ e with data := [], completed := cm }]) (fresh c) d' cm' es' h2
      refine ⟨p, ?_, h7⟩
      have hs : at' done e [] cm ({ fresh c with data := (fresh c).data ++ d', completed := cm' } :: es') =
          at' (done ++ [{ e with data := [], completed := cm }]) (fresh c) (c.bytes ++ d') cm' es' := by
        have hb := full_bytes hf.1
        have hne : c.bytes ++ d' ≠ [] := by
          intro h0
          have : c.bytes.length = 0 := by rw [(List.append_eq_nil_iff.mp h0).1]; rfl
          omega
        simp only [at', if_neg hne, fresh]
        simp
      rw [hs]
      simp only [Player.replay, call_at _ (fresh c) c hf.1 d' cm' es' rfl, List.map_cons, h6]

/-- C60: a session in which every call transfers what it was asked to (at least two bytes each) without an error is
recorded, the recording can be loaded, the same calls in playback see exactly what they saw when recorded, and Close
reports no error. Missing: one-byte transfers (`c60_false_byte`), reads that deliver less than asked
(`c60_false_short`), errors (`c60_false_error`). -/
theorem c60_replays_partial (cs : List Call) (hf : ∀ c ∈ cs, Full c) :
    ∃ evs, recordAll [] cs = .ok evs ∧ reload evs = some evs ∧
      ∃ p, (Player.mk evs 0).replay cs = (cs.map Call.seen, p) ∧ p.close = none := by
  cases cs with
  | nil => exact ⟨[], rfl, rfl, _, rfl, rfl⟩
  | cons c cs =>
    simp only [List.forall_mem_cons] at hf
    obtain ⟨d, cm, es, _, h2, h3⟩ := recordAll_prefix cs hf.2 [] (fresh c)
    refine ⟨{ fresh c with data := (fresh c).data ++ d, completed := cm } :: es, ?_, ?_, ?_⟩
    · simp only [recordAll, recordCall_nil hf.1, h2]
    · unfold reload
      rw [if_pos]
      simp only [List.all_cons, fresh, Option.isNone_none, Bool.true_and, List.all_eq_true]
      intro x hx; rw [h3 x hx]; rfl
    · obtain ⟨p, h4, h5, l, x, h6, h7⟩ := replay_from cs hf.2 [] (fresh c) d cm es h2
      refine ⟨p, ?_, ?_⟩
      · have hs : (Player.mk ({ fresh c with data := (fresh c).data ++ d, completed := cm } :: es) 0) =
            at' [] (fresh c) (c.bytes ++ d) cm es := by
          have hb := full_bytes hf.1
          have hne : c.bytes ++ d ≠ [] := by
            intro h0
            have : c.bytes.length = 0 := by rw [(List.append_eq_nil_iff.mp h0).1]; rfl
            omega
          simp only [at', if_neg hne, fresh]
          simp
        rw [hs]
        simp only [Player.replay, call_at _ (fresh c) c hf.1 d cm es rfl, List.map_cons, h4]
      · unfold Player.close
        rw [h6]
        simp only [List.getLast?_append, List.getLast?_singleton, Option.some_or]
        rw [if_neg (by rw [h5, h6]; simp), if_neg (by simp [h7])]

/-- C60 as stated is false: recording a transfer of one byte panics. -/
theorem c60_false_byte : recordAll [] [.read 1 [7] none] = .error .index := rfl

/-- C60 as stated is false: a read that delivered two of four bytes, followed by one that delivered the rest, is
recorded as one event, and in playback the first read delivers all four. -/
theorem c60_false_short : ∃ cs evs, recordAll [] cs = .ok evs ∧ reload evs = some evs ∧
    cs.map Call.seen = [.read [1, 2] none, .read [3, 4] none] ∧
    ∃ p s, (Player.mk evs 0).replay cs = ([.read [1, 2, 3, 4] none, s], p) :=
  ⟨[.read 4 [1, 2] none, .read 2 [3, 4] none], _, rfl, rfl, rfl, _, _, rfl⟩

/-- C60 as stated is false: the recording of a session that saw an error cannot be loaded. -/
theorem c60_false_error : ∃ cs evs, recordAll [] cs = .ok evs ∧ reload evs = none :=
  ⟨[.read 2 [1, 2] none, .read 2 [] (some .eof)], _, rfl, rfl⟩

example : ∃ evs, recordAll [] [.write [1, 2, 3] 3 none, .read 2 [0, 4] none, .read 3 [5, 0, 0] none, .read 2 [6, 7] none] =
    .ok evs ∧ evs.length = 3 ∧
    ∃ p, (Player.mk evs 0).replay [.write [1, 2, 3] 3 none, .read 2 [0, 4] none, .read 3 [5, 0, 0] none, .read 2 [6, 7] none] =
      ([.wrote 3 none, .read [0, 4] none, .read [5, 0, 0] none, .read [6, 7] none], p) := by
  obtain ⟨evs, h1, _, p, h2, _⟩ := c60_replays_partial
    [.write [1, 2, 3] 3 none, .read 2 [0, 4] none, .read 3 [5, 0, 0] none, .read 2 [6, 7] none] (by simp [Full])
  refine ⟨evs, h1, ?_, p, h2⟩
  have : recordAll [] [.write [1, 2, 3] 3 none, .read 2 [0, 4] none, .read 3 [5, 0, 0] none, .read 2 [6, 7] none] =
    .ok [⟨[1, 2, 3], true, false, none⟩, ⟨[0, 4, 5, 0, 0], false, true, none⟩, ⟨[6, 7], false, false, none⟩] := rfl
  rw [this] at h1
  injection h1 with h1
  rw [← h1]; rfl

end Bolt.Recording
