import Verif.Spec.Server
import Verif.Proofs.EncodeMain
import Verif.Proofs.Framing
import Verif.Proofs.Unique
import Verif.Proofs.Accept
import Verif.Props.Encoding

/-! The server receives what the driver sends. -/

namespace Bolt
open PackStream

/-! ## Deframing -/

theorem deframe_framed {p w : Bytes} (h : Framed p w) (r : Bytes) (f : Nat) (hf : w.length ≤ f) :
    deframe f (w ++ r) = some (p, r) := by
  induction h generalizing f with
  | done =>
    obtain ⟨f, rfl⟩ : ∃ g, f = g + 1 := ⟨f - 1, by simp at hf; omega⟩
    simp [deframe, ofBytes]
  | @chunk c hdr p wire h1 h2 _ ih =>
    obtain ⟨h2, h3⟩ := h2
    have hl : 0 < c.length := List.length_pos_iff.mpr h1
    match hdr, h2 with
    | [a, b], _ =>
      simp only [List.length_append, List.length_cons, List.length_nil] at hf
      obtain ⟨f, rfl⟩ : ∃ g, f = g + 1 := ⟨f - 1, by omega⟩
      simp only [List.cons_append, List.nil_append, deframe, h3]
      rw [if_neg (by omega), if_neg (by simp)]
      have : List.drop c.length (c ++ wire ++ r) = wire ++ r := by simp
      rw [this, ih f (by omega)]
      simp

theorem framed_len {p w : Bytes} (h : Framed p w) : 2 ≤ w.length := by
  cases h with
  | done => simp
  | chunk h1 h2 h3 => have := h2.1; simp; omega

theorem framed_unique {p p' w w' r r' : Bytes} (h : Framed p w) (h' : Framed p' w') (he : w ++ r = w' ++ r') :
    p = p' ∧ w = w' ∧ r = r' := by
  have h1 := deframe_framed h r (w.length + w'.length) (by omega)
  have h2 := deframe_framed h' r' (w.length + w'.length) (by omega)
  rw [he, h2] at h1
  simp only [Option.some.injEq, Prod.mk.injEq] at h1
  obtain ⟨rfl, rfl⟩ := h1
  exact ⟨rfl, List.append_cancel_right he, rfl⟩

theorem received_packs {q : PS} {p : Bytes} (h : Packs fullRange q p) : received p = PS.req q := by
  have hex : ∃ q, Packs fullRange q p := ⟨q, h⟩
  unfold received
  rw [dif_pos hex]
  have h2 := Classical.choose_spec hex
  obtain ⟨h3, _⟩ := packs_unique (r := []) (s := []) h h2 rfl
  rw [← h3]

variable {δ : Type} (D : DB δ)

theorem deframe_nil (f : Nat) : deframe f [] = none := by cases f <;> rfl

theorem absorb_nil (f : Nat) (d : δ) (m : Mode) : D.absorb f d m [] = (⟨d, m, []⟩, []) := by
  cases f with
  | zero => rfl
  | succ f => simp [DB.absorb, deframe_nil]

theorem absorb_one {q : PS} {p b : Bytes} (hq : Packs fullRange q p) (hp : Framed p b) (d : δ) (m : Mode) (r : Bytes)
    (f : Nat) :
    D.absorb (f + 1) d m (b ++ r) =
      ((D.absorb f (D.handle d m (PS.req q)).1 (D.handle d m (PS.req q)).2.1 r).1,
       (D.handle d m (PS.req q)).2.2 ++ (D.absorb f (D.handle d m (PS.req q)).1 (D.handle d m (PS.req q)).2.1 r).2) := by
  simp only [DB.absorb]
  rw [deframe_framed hp r _ (by simp), ← received_packs hq]

/-- One complete message, nothing pending. -/
theorem react_one {q : PS} {p b : Bytes} (hq : Packs fullRange q p) (hp : Framed p b) (d : δ) (m : Mode) :
    D.peer.react ⟨d, m, []⟩ b =
      (⟨(D.handle d m (PS.req q)).1, (D.handle d m (PS.req q)).2.1, []⟩, (D.handle d m (PS.req q)).2.2.map .val) := by
  have h := framed_len hp
  obtain ⟨f, hf⟩ : ∃ f, b.length = f + 1 := ⟨b.length - 1, by omega⟩
  have h1 := absorb_one D hq hp d m [] f
  simp only [List.append_nil, absorb_nil] at h1
  simp only [DB.peer, List.nil_append]
  rw [hf, h1]

/-! ## Sending -/

theorem sendable_wire {cs : Nat} {v : Val} (h : Sendable cs v) (out : Bytes) :
    ∃ q p wire, Means v q ∧ Packs fullRange q p ∧ Framed p wire ∧
      encodeTo cs ⟨out, none⟩ v = (⟨out ++ wire, none⟩, none) := by
  obtain ⟨ht, hc, hs, h0, h1, h2⟩ := h
  have he := (acc v).mpr hs
  obtain ⟨q, h3, h4⟩ := enc_packs v (good_full ht hc) he
  rw [← payload_eq] at h4
  rcases h2 with h2 | ⟨h2, h5⟩
  · obtain ⟨wire, h6, h7⟩ := c06_small_partial h0 h1 out hs h2
    exact ⟨q, _, wire, h3, h4, h7, h6⟩
  · obtain ⟨wire, h6, _, h7⟩ := c06_c07_framed_partial h2 h1 out hs h5
    exact ⟨q, _, wire, h3, h4, h7, h6⟩

theorem streamFails_unlimited (cs : Nat) (out : Bytes) (v : Val) : streamFails cs ⟨out, none⟩ v = false := by
  obtain ⟨cks, buf, h1, _⟩ := run_unlimited cs (encOps v).writes out []
  unfold streamFails
  rw [h1]
  simp [flush_unlimited]

/-- Replace what is on the wire, in the inbox and in the log. -/
def World.net {σ : Type} (w : World σ) (k : Sink) (s : σ) (i : List Item) (l : List Event) : World σ :=
  { w with sink := k, srv := s, inbox := i, log := l }

section
variable {σ : Type} (w : World σ) (k : Sink) (s : σ) (i : List Item) (l : List Event)
@[simp] theorem net_stmts : (w.net k s i l).stmts = w.stmts := rfl
@[simp] theorem net_rows : (w.net k s i l).rows = w.rows := rfl
@[simp] theorem net_txs : (w.net k s i l).txs = w.txs := rfl
@[simp] theorem net_statement : (w.net k s i l).statement = w.statement := rfl
@[simp] theorem net_transaction : (w.net k s i l).transaction = w.transaction := rfl
@[simp] theorem net_closed : (w.net k s i l).closed = w.closed := rfl
@[simp] theorem net_connErr : (w.net k s i l).connErr = w.connErr := rfl
@[simp] theorem net_chunkSize : (w.net k s i l).chunkSize = w.chunkSize := rfl
@[simp] theorem net_sockCloseErr : (w.net k s i l).sockCloseErr = w.sockCloseErr := rfl
@[simp] theorem net_sink : (w.net k s i l).sink = k := rfl
@[simp] theorem net_srv : (w.net k s i l).srv = s := rfl
@[simp] theorem net_inbox : (w.net k s i l).inbox = i := rfl
@[simp] theorem net_log : (w.net k s i l).log = l := rfl
@[simp] theorem net_net (k' : Sink) (s' : σ) (i' : List Item) (l' : List Event) :
    (w.net k s i l).net k' s' i' l' = w.net k' s' i' l' := rfl
@[simp] theorem net_stmt (n : Nat) : (w.net k s i l).stmt n = w.stmt n := rfl
@[simp] theorem net_row (n : Nat) : (w.net k s i l).row n = w.row n := rfl
@[simp] theorem net_txClosed (n : Nat) : (w.net k s i l).txClosed n = w.txClosed n := rfl
end

/-- The encoder delivers a sendable message to a server with nothing pending; the server handles it. -/
theorem send_ok {w : World (Srv δ)} {v : Val} {d : δ} {m : Mode} (hs : Sendable w.chunkSize v)
    (hb : w.sink.budget = none) (hsrv : w.srv = ⟨d, m, []⟩) :
    ∃ q b, Means v q ∧ Carries v b ∧
      send D.peer v w = .ok none (w.net ⟨w.sink.out ++ b, none⟩
        ⟨(D.handle d m (PS.req q)).1, (D.handle d m (PS.req q)).2.1, []⟩
        (w.inbox ++ (D.handle d m (PS.req q)).2.2.map .val)
        (w.log ++ [.send v none])) := by
  obtain ⟨q, p, b, h1, h2, h3, h4⟩ := sendable_wire hs w.sink.out
  refine ⟨q, b, h1, ⟨q, p, h1, h2, h3⟩, ?_⟩
  have hk : w.sink = ⟨w.sink.out, none⟩ := by rw [← hb]
  have hne : b ≠ [] := by rintro rfl; have := framed_len h3; simp at this
  have hf : streamFails w.chunkSize w.sink v = false := by rw [hk]; exact streamFails_unlimited _ _ _
  have h5 : encodeTo w.chunkSize w.sink v = (⟨w.sink.out ++ b, none⟩, none) := by
    rw [← h4, ← hk]
  unfold send
  simp only [h5, hf, Bool.or_false]
  have hd : List.drop w.sink.out.length (w.sink.out ++ b) = b := by simp
  simp only [hd, if_neg hne, hsrv, react_one D h2 h3]
  rfl

end Bolt
