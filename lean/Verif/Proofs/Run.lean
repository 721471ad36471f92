import Verif.Proofs.Wire

/-! Running the session model against a conforming server. -/

namespace Bolt
open PackStream

/-! ## Evaluation -/

section
variable {σ α β : Type}

@[simp] theorem pure_run (a : α) (w : World σ) : M.pure a w = .ok a w := rfl
@[simp] theorem get_run (f : World σ → α) (w : World σ) : M.get f w = .ok (f w) w := rfl
@[simp] theorem modify_run (f : World σ → World σ) (w : World σ) : M.modify f w = .ok () (f w) := rfl
@[simp] theorem panic_run (p : Panic) (w : World σ) : (M.panic p : M σ α) w = .panic p w := rfl

theorem mbind_run (x : M σ α) (f : α → M σ β) (w : World σ) :
    (x >>= f) w = match x w with
      | .ok a w' => f a w'
      | .panic p w' => .panic p w'
      | .deep w' => .deep w' := rfl

theorem mbind_ok {x : M σ α} {f : α → M σ β} {w w' : World σ} {a : α} (h : x w = .ok a w') : (x >>= f) w = f a w' := by
  rw [mbind_run, h]

theorem mbind_panic {x : M σ α} {f : α → M σ β} {w w' : World σ} {p : Panic} (h : x w = .panic p w') :
    (x >>= f) w = .panic p w' := by rw [mbind_run, h]

theorem mbind_deep {x : M σ α} {f : α → M σ β} {w w' : World σ} (h : x w = .deep w') : (x >>= f) w = .deep w' := by
  rw [mbind_run, h]

@[simp] theorem get_bind (g : World σ → α) (f : α → M σ β) (w : World σ) : (M.get g >>= f) w = f (g w) w := rfl
@[simp] theorem modify_bind (g : World σ → World σ) (f : Unit → M σ β) (w : World σ) :
    (M.modify g >>= f) w = f () (g w) := rfl
@[simp] theorem pure_bind' (a : α) (f : α → M σ β) (w : World σ) : (M.pure a >>= f) w = f a w := rfl

end

section
variable {σ : Type} (P : Peer σ)

theorem recv_val {w : World σ} {v : Val} {t : List Item} (h : w.inbox = .val v :: t) :
    recv P w = .ok (v, none) (w.net w.sink w.srv t (w.log ++ [.recv (.val v)])) := by
  unfold recv nextItem
  simp [h, World.net]

/-- `consume` on any message but FAILURE. -/
theorem consume_val (close : M σ (Option GoErr)) {w : World σ} {v : Val} {t : List Item} (h : w.inbox = .val v :: t)
    (hv : ∀ md, v ≠ .failure md) :
    consume P close w = .ok (v, none) (w.net w.sink w.srv t (w.log ++ [.recv (.val v)])) := by
  unfold consume
  rw [mbind_ok (recv_val P h)]
  cases v <;> first | rfl | exact absurd rfl (hv _)

/-- `consumeAll` on plain messages followed by SUCCESS. -/
theorem consumeAll_success (close : M σ (Option GoErr)) {w : World σ} {vs : List Val} {md : KVs} {t : List Item}
    (h : w.inbox = vs.map .val ++ .val (.success md) :: t) (hv : ∀ v ∈ vs, Item.isPlain (.val v) = true) :
    consumeAll P close w = .ok (vs, .success md, none)
      (w.net w.sink w.srv t (w.log ++ vs.map (fun v => .recv (.val v)) ++ [.recv (.val (.success md))])) := by
  have h1 : w.inbox.takeWhile Item.isPlain = vs.map .val := by
    rw [h, List.takeWhile_append_of_pos (by simpa using hv)]
    simp [Item.isPlain]
  have h2 : w.inbox.dropWhile Item.isPlain = .val (.success md) :: t := by
    rw [h, List.dropWhile_append_of_pos (by simpa using hv)]
    simp [Item.isPlain]
  unfold consumeAll
  simp only [h1, h2]
  rw [mbind_ok (consume_val P close (t := t) (v := .success md) rfl (by simp))]
  have h3 : (fun x => Item.value (Item.val x)) = id := rfl
  simp [World.net, Function.comp_def, h3]

end

/-! ## Small messages -/

def Tiny (v : Val) : Prop := v.Typed ∧ v.Clean ∧ v.Supported ∧ v.footprint ≤ 65535

theorem tiny_sendable {cs : Nat} (h0 : 0 < cs) (h1 : cs ≤ 65535) {v : Val} (h : Tiny v) : Sendable cs v :=
  ⟨h.1, h.2.1, h.2.2.1, h0, h1, .inl h.2.2.2⟩

theorem tiny_pullAll : Tiny .pullAll := by
  refine ⟨trivial, trivial, ?_, by decide⟩
  simp [Val.Supported, Val.All, Val.SupportedHere, Val.sizes]
theorem tiny_discardAll : Tiny .discardAll := by
  refine ⟨trivial, trivial, ?_, by decide⟩
  simp [Val.Supported, Val.All, Val.SupportedHere, Val.sizes]
theorem tiny_ackFailure : Tiny .ackFailure := by
  refine ⟨trivial, trivial, ?_, by decide⟩
  simp [Val.Supported, Val.All, Val.SupportedHere, Val.sizes]
theorem tiny_reset : Tiny .reset := by
  refine ⟨trivial, trivial, ?_, by decide⟩
  simp [Val.Supported, Val.All, Val.SupportedHere, Val.sizes]
theorem tiny_run {q : Str} (hq : q.length ≤ 60000) : Tiny (.run q []) := by
  have e : (2:Nat)^32 = 4294967296 := by decide
  refine ⟨?_, ?_, ?_, ?_⟩
  · simp [Val.Typed, Val.All, Val.TypedHere, DistinctKeys, Val.AllKVs]
  · simp [Val.Clean, Val.All, Val.CleanHere, Val.AllKVs]
  · simp [Val.Supported, Val.All, Val.SupportedHere, Val.sizes, Val.AllKVs, keySizes]; omega
  · simp [Val.footprint, Val.footKVs]; omega

/-! ## Requests -/

/-- A working connection to a server in mode `m` with nothing pending; unread messages are allowed. -/
structure Live {δ : Type} (w : World (Srv δ)) (d : δ) (m : Mode) : Prop where
  closed : w.closed = false
  srv : w.srv = ⟨d, m, []⟩
  budget : w.sink.budget = none
  cs : 0 < w.chunkSize ∧ w.chunkSize ≤ 65535

variable {δ : Type} (D : DB δ)

theorem Live.net {w : World (Srv δ)} {d d' : δ} {m m' : Mode} (h : Live w d m) (out : Bytes) (i : List Item)
    (l : List Event) : Live (w.net ⟨out, none⟩ ⟨d', m', []⟩ i l) d' m' :=
  ⟨h.closed, rfl, rfl, h.cs⟩

theorem Live.net' {w : World (Srv δ)} {d d' : δ} {m m' : Mode} (h : Live w d m) {k : Sink} (hk : k.budget = none)
    (i : List Item) (l : List Event) : Live (w.net k ⟨d', m', []⟩ i l) d' m' :=
  ⟨h.closed, rfl, hk, h.cs⟩

theorem Live.send {w : World (Srv δ)} {d : δ} {m : Mode} (h : Live w d m) {v : Val} (hs : Sendable w.chunkSize v) :
    ∃ q b, Means v q ∧ Carries v b ∧
      send D.peer v w = .ok none (w.net ⟨w.sink.out ++ b, none⟩
        ⟨(D.handle d m (PS.req q)).1, (D.handle d m (PS.req q)).2.1, []⟩
        (w.inbox ++ (D.handle d m (PS.req q)).2.2.map .val)
        (w.log ++ [.send v none])) := send_ok D hs h.budget h.srv

theorem req_pullAll {q : PS} (h : Means .pullAll q) : PS.req q = .pullAll := by
  simp only [Means] at h; subst h; rfl
theorem req_discardAll {q : PS} (h : Means .discardAll q) : PS.req q = .discardAll := by
  simp only [Means] at h; subst h; rfl
theorem req_ackFailure {q : PS} (h : Means .ackFailure q) : PS.req q = .ackFailure := by
  simp only [Means] at h; subst h; rfl
theorem req_reset {q : PS} (h : Means .reset q) : PS.req q = .reset := by
  simp only [Means] at h; subst h; rfl
theorem req_run {s : Str} {kvs : KVs} {q : PS} (h : Means (.run s kvs) q) :
    ∃ ps, MeansKVs kvs ps ∧ PS.req q = .run s ps := by
  simp only [Means] at h
  obtain ⟨ps, h1, rfl⟩ := h
  exact ⟨ps, h1, rfl⟩

/-- `ackFailure` when everything unread is IGNORED. -/
theorem Live.ack (close : M (Srv δ) (Option GoErr)) {w : World (Srv δ)} {d : δ} (h : Live w d .failed) {n : Nat}
    (hi : w.inbox = List.replicate n (.val .ignored)) :
    ∃ b l, Carries .ackFailure b ∧ ackFailure D.peer close w = .ok none (w.net ⟨w.sink.out ++ b, none⟩ ⟨d, .ready, []⟩ []
      (w.log ++ .send .ackFailure none :: List.replicate n (.recv (.val .ignored)) ++ l)) ∧
      ∃ md, l = [.recv (.val (.success md))] := by
  obtain ⟨q, b, h1, h2, h3⟩ := h.send D (tiny_sendable h.cs.1 h.cs.2 tiny_ackFailure)
  refine ⟨b, [.recv (.val (.success []))], h2, ?_, ⟨[], rfl⟩⟩
  rw [req_ackFailure h1] at h3
  simp only [DB.handle, List.map_cons, List.map_nil, hi] at h3
  unfold ackFailure
  rw [mbind_ok h3]
  have e1 : (List.replicate n (Item.val .ignored) ++ [Item.val (.success [])]).dropWhile Item.isIgnored =
      [Item.val (.success [])] := by
    rw [List.dropWhile_append_of_pos (by simp [Item.isIgnored])]; rfl
  have e2 : (List.replicate n (Item.val .ignored) ++ [Item.val (.success [])]).takeWhile Item.isIgnored =
      List.replicate n (Item.val .ignored) := by
    rw [List.takeWhile_append_of_pos (by simp [Item.isIgnored])]; simp [Item.isIgnored]
  have h4 : skipIgnored (w.net ⟨w.sink.out ++ b, none⟩ ⟨d, .ready, []⟩
      (List.replicate n (Item.val .ignored) ++ [Item.val (.success [])]) (w.log ++ [.send .ackFailure none])) =
      .ok () (w.net ⟨w.sink.out ++ b, none⟩ ⟨d, .ready, []⟩ [Item.val (.success [])]
        (w.log ++ [.send .ackFailure none] ++ List.replicate n (.recv (.val .ignored)))) := by
    unfold skipIgnored
    simp only [net_inbox, e1, e2, net_log]
    simp [World.net]
  simp only []
  rw [mbind_ok h4, mbind_ok (recv_val _ (v := .success []) (t := []) rfl)]
  simp [World.net]

/-- `consume` on a FAILURE after which everything is IGNORED: the failure is acknowledged and the session is
in step again. -/
theorem Live.consume_failure (close : M (Srv δ) (Option GoErr)) {w : World (Srv δ)} {d : δ} (h : Live w d .failed)
    {md : KVs} {n : Nat} (hi : w.inbox = .val (.failure md) :: List.replicate n (.val .ignored)) :
    ∃ b l, Carries .ackFailure b ∧
      consume D.peer close w = .ok (.failure md, some (.wrap "Neo4J reported a failure for the query" (some (.failure md))))
        (w.net ⟨w.sink.out ++ b, none⟩ ⟨d, .ready, []⟩ [] (w.log ++ l)) := by
  have h1 := recv_val D.peer hi
  have hl : Live (w.net w.sink w.srv (List.replicate n (.val .ignored)) (w.log ++ [.recv (.val (.failure md))])) d .failed :=
    ⟨h.closed, h.srv, h.budget, h.cs⟩
  obtain ⟨b, l, h2, h3, _⟩ := hl.ack D close (n := n) rfl
  refine ⟨b, .recv (.val (.failure md)) :: .send .ackFailure none :: List.replicate n (.recv (.val .ignored)) ++ l, h2, ?_⟩
  unfold consume
  rw [mbind_ok h1]
  simp only []
  rw [mbind_ok h3]
  simp

/-- `consumeAll` on plain messages followed by a FAILURE after which everything is IGNORED. -/
theorem Live.consumeAll_failure (close : M (Srv δ) (Option GoErr)) {w : World (Srv δ)} {d : δ} (h : Live w d .failed)
    {vs : List Val} {md : KVs} {n : Nat}
    (hi : w.inbox = vs.map .val ++ .val (.failure md) :: List.replicate n (.val .ignored))
    (hv : ∀ v ∈ vs, Item.isPlain (.val v) = true) :
    ∃ b l, Carries .ackFailure b ∧
      consumeAll D.peer close w = .ok ([], .failure md, some (.wrap "Neo4J reported a failure for the query" (some (.failure md))))
        (w.net ⟨w.sink.out ++ b, none⟩ ⟨d, .ready, []⟩ [] (w.log ++ l)) := by
  have e1 : w.inbox.takeWhile Item.isPlain = vs.map .val := by
    rw [hi, List.takeWhile_append_of_pos (by simpa using hv)]
    simp [Item.isPlain]
  have e2 : w.inbox.dropWhile Item.isPlain = .val (.failure md) :: List.replicate n (.val .ignored) := by
    rw [hi, List.dropWhile_append_of_pos (by simpa using hv)]
    simp [Item.isPlain]
  have hl : Live ({ w with inbox := .val (.failure md) :: List.replicate n (.val .ignored),
                           log := w.log ++ (vs.map Item.val).map .recv } : World (Srv δ)) d .failed :=
    ⟨h.closed, h.srv, h.budget, h.cs⟩
  obtain ⟨b, l, h2, h3⟩ := hl.consume_failure D close (md := md) (n := n) rfl
  refine ⟨b, (vs.map Item.val).map .recv ++ l, h2, ?_⟩
  unfold consumeAll
  simp only [e1, e2]
  rw [mbind_ok h3]
  simp [World.net]

end Bolt
