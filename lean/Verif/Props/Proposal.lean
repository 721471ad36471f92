import Verif.Proofs.Opening
import Verif.Proofs.Steps

/-!
# C87: what a new connection writes first
-/

namespace Bolt

/-- A version number of Bolt's handshake: four bytes, the most significant one first. -/
def version (n : Nat) : Bytes := [UInt8.ofNat (n / 16777216), UInt8.ofNat (n / 65536), UInt8.ofNat (n / 256), UInt8.ofNat n]

/-- The client's part of Bolt's handshake: the magic preamble and four versions in the order of preference; 0 stands for
none. -/
def proposal (v1 v2 v3 v4 : Nat) : Bytes := [0x60, 0x60, 0xB0, 0x17] ++ version v1 ++ version v2 ++ version v3 ++ version v4

namespace Proposals

variable {k : Sock} {tok : KVs} {s : Bool}

theorem moves_prefix {σ : Type} {P : Peer σ} {a b : World σ} (h : Moves P a b) : a.sink.out <+: b.sink.out := by
  induction h with
  | refl => exact List.prefix_refl _
  | @tail w1 w2 _ st ih =>
    refine ih.trans ?_
    cases st with
    | own h1 => rw [h1]; exact List.prefix_refl _
    | send v =>
      have := encodeTo_prefix w1.chunkSize w1.sink v
      unfold send
      simp only
      split <;> exact this
    | recv =>
      unfold recv
      simp only
      cases nextItem P w1 <;> exact List.prefix_refl _
    | shut => exact List.prefix_refl _

theorem does_init {n : Nat} : Does mute (initSession mute (closeN mute n) tok) := by
  have hc := does_closeN (P := mute) n
  unfold initSession sendInit
  refine .bind (.bind (.send _) fun e => ?_) fun x => ?_
  · cases e with
    | some e => exact .pure _
    | none => exact does_consume hc
  · obtain ⟨v, e⟩ := x
    cases e with
    | some e => exact .bind hc fun _ => .pure _
    | none =>
      cases v with
      | success md => exact .pure _
      | _ => exact .bind .connErr fun _ => .bind hc fun _ => .pure _

/-- The handshake writes the proposal or a part of it, all of it when it succeeds. -/
theorem shake_out (k : Sock) : ∃ m, (handShake k).1.sink.out = k.sink.out ++ handShakeBytes.take m := by
  have hw : ∃ m, (k.sink.write handShakeBytes).1.out = k.sink.out ++ handShakeBytes.take m := by
    unfold Sink.write
    split
    · exact ⟨20, rfl⟩
    · split
      · exact ⟨20, rfl⟩
      · exact ⟨_, rfl⟩
  obtain ⟨m, hm⟩ := hw
  refine ⟨m, ?_⟩
  unfold handShake Sock.write
  rcases h1 : k.sink.write handShakeBytes with ⟨w, b⟩
  rw [h1] at hm
  have hr : ∀ k' : Sock, ∀ n, (k'.read n).1.sink = k'.sink := by
    intro k' n
    unfold Sock.read
    rcases k'.src.read n with ⟨r, b, e⟩
    cases e with
    | none => rfl
    | some e => simp only; split <;> rfl
  cases b <;> simp only <;> split
  · exact hm
  · have := hr { k with sink := w, connErr := true } 4
    rcases h2 : Sock.read { k with sink := w, connErr := true } 4 with ⟨k', v, e⟩
    rw [h2] at this
    simp only at this ⊢
    split
    · simp only [this]; exact hm
    · split <;> (simp only [this]; exact hm)
  · exact hm
  · have := hr { k with sink := w } 4
    rcases h2 : Sock.read { k with sink := w } 4 with ⟨k', v, e⟩
    rw [h2] at this
    simp only at this ⊢
    split
    · simp only [this]; exact hm
    · split <;> (simp only [this]; exact hm)

theorem close_out {n : Nat} (k : Sock) (e : Option GoErr) : ((do
      let _ ← closeN mute n
      M.pure e : M Bool (Option GoErr)) (k.world s)).world.sink.out = k.sink.out := by
  cases n with
  | zero => rfl
  | succ n => cases s <;> rfl

end Proposals
open Proposals

/-- C87: whatever the server sends, however the socket fails, and whatever opening returns (or if decoding panics): what has
been written is a part of the proposal of version 1, or begins with all of it. -/
theorem c87_first (k : Sock) (tok : KVs) (n : Nat) (s : Bool) :
    ∃ o, (initConn (closeN mute n) tok k s).world.sink.out = k.sink.out ++ o ∧ (o <+: proposal 1 0 0 0 ∨ proposal 1 0 0 0 <+: o) := by
  have hp : handShakeBytes = proposal 1 0 0 0 := rfl
  unfold initConn
  rcases hh : handShake k with ⟨k', e⟩
  cases e with
  | some e =>
    obtain ⟨m, hm⟩ := shake_out k
    rw [hh] at hm
    exact ⟨handShakeBytes.take m, by rw [← hm]; exact close_out k' (some e), .inl (hp ▸ List.take_prefix _ _)⟩
  | none =>
    obtain ⟨_, _, _, _, hout, _⟩ := handShake_none hh
    obtain ⟨more, hm⟩ := moves_prefix (does_init (n := n) (tok := tok) (k'.world s))
    refine ⟨handShakeBytes ++ more, ?_, .inr (hp ▸ List.prefix_append _ _)⟩
    rw [← hm, ← List.append_assoc, ← hout]
    rfl

/-- C87: INIT, which carries the credentials, is written only after bytes have been read that are not the refusal 00 00 00
00, and only behind the whole proposal: otherwise nothing but (a part of) the proposal has been written. Missing: a
refusal that arrives in pieces. -/
theorem c87_refused_partial (k : Sock) (tok : KVs) (n : Nat) (s : Bool)
    (h : ¬ ∃ v r, k.src.read 4 = (r, v, none) ∧ v ≠ [0, 0, 0, 0]) :
    ∃ o, (initConn (closeN mute n) tok k s).world.sink.out = k.sink.out ++ o ∧ o <+: proposal 1 0 0 0 := by
  have hp : handShakeBytes = proposal 1 0 0 0 := rfl
  unfold initConn
  rcases hh : handShake k with ⟨k', e⟩
  cases e with
  | some e =>
    obtain ⟨m, hm⟩ := shake_out k
    rw [hh] at hm
    exact ⟨handShakeBytes.take m, by rw [← hm]; exact close_out k' (some e), hp ▸ List.take_prefix _ _⟩
  | none =>
    obtain ⟨v, h1, _, _, _, h2⟩ := handShake_none hh
    exact absurd ⟨v, _, h1, h2⟩ h

/-- C87 is false: a server that has sent nothing but the refusal, in two pieces, is sent the credentials. -/
theorem c87_false : ∃ k : Sock, k.src.bytes = [0, 0, 0, 0] ∧
    proposal 1 0 0 0 <+: (initConn (closeN mute 1) (authToken [117] [112, 119]) k false).world.sink.out ∧
    [0x82, 112, 119] <:+: (initConn (closeN mute 1) (authToken [117] [112, 119]) k false).world.sink.out :=
  ⟨⟨⟨[], none⟩, ⟨[[0, 0], [0, 0]], .eof⟩, false⟩, rfl, by decide +kernel, by decide +kernel⟩

/-- A server that refuses version 1: 20 bytes are written. -/
example : (initConn (closeN mute 1) (authToken [117] [112]) ⟨⟨[], none⟩, ⟨[[0, 0, 0, 0]], .eof⟩, false⟩ false).world.sink.out =
    [0x60, 0x60, 0xB0, 0x17, 0, 0, 0, 1, 0, 0, 0, 0, 0, 0, 0, 0, 0, 0, 0, 0] := rfl

/-- A socket that takes 6 bytes. -/
example : (initConn (closeN mute 1) (authToken [117] [112]) ⟨⟨[], some 6⟩, ⟨[[0, 0, 0, 1]], .eof⟩, false⟩ false).world.sink.out =
    [0x60, 0x60, 0xB0, 0x17, 0, 0] := rfl

/-- A server that agrees: INIT follows. -/
example : (proposal 1 0 0 0).length < (initConn (closeN mute 1) (authToken [117] [112]) ⟨⟨[], none⟩, ⟨[[0, 0, 0, 1]], .eof⟩, false⟩ false).world.sink.out.length := by
  decide +kernel

end Bolt
