import Verif.Spec.Text
import Verif.Proofs.Opening
import Verif.Proofs.Quiet
import Verif.Spec.Histories

/-!
# C44–C47, C66: opening a connection
-/

namespace Bolt
open PackStream

variable {k k' : Sock} {tok : KVs} {n : Nat} {s : Bool} {w : World Bool}

/-! ## C44, C66 -/

theorem consume_none {σ : Type} {P : Peer σ} {close : M σ (Option GoErr)} {w w' : World σ} {v : Val} (h : consume P close w = .ok (v, none) w') :
    recv P w = .ok (v, none) w' := by
  obtain ⟨⟨v1, e1⟩, w1, h1, h2⟩ := run_inv h
  cases e1 with
  | some e => cases h2
  | none =>
    cases v1 with
    | failure md =>
      obtain ⟨a, w2, h3, h4⟩ := run_inv h2
      cases a <;> cases h4
    | _ => cases h2; exact h1

theorem holds_world (hne : k.src.NonEmpty) (s : Bool) : Holds (k.world s) k.src := ⟨hne, rfl, rfl, rfl⟩

theorem send_mute {w : World Bool} (v : Val) : send mute v w = .ok (encodeTo w.chunkSize w.sink v).2
    { w with sink := (encodeTo w.chunkSize w.sink v).1, connErr := w.connErr || streamFails w.chunkSize w.sink v,
             log := w.log ++ [.send v (encodeTo w.chunkSize w.sink v).2] } := by
  unfold send
  simp only [mute]
  split <;> simp

/-- INIT succeeded: it was written, and the next message in the stream is a SUCCESS. -/
theorem initSession_none {close : M Bool (Option GoErr)} (hne : k.src.NonEmpty) (h : initSession mute close tok (k.world s) = .ok none w) :
    ∃ md r, decodeFrom k.src = (.ok (.success md), r) ∧ w.inbox = r.items ∧
      encodeTo 65535 k.sink (.init clientID tok) = (w.sink, none) ∧
      w.log = [.send (.init clientID tok) none, .recv (.val (.success md))] := by
  obtain ⟨⟨v, e⟩, w1, h1, h2⟩ := run_inv h
  cases e with
  | some e => obtain ⟨_, _, _, h3⟩ := run_inv h2; cases h3
  | none =>
    obtain ⟨e, w2, h3, h4⟩ := run_inv h1
    rw [send_mute] at h3
    cases e with
    | some e => cases h4
    | none =>
      have hr := consume_none h4
      injection h3 with h5 h6
      have hh : Holds w2 k.src := by subst h6; exact ⟨hne, rfl, rfl, rfl⟩
      have hk : (encodeTo 65535 k.sink (.init clientID tok)) = (w2.sink, none) := by
        subst h6; exact Prod.ext rfl h5
      have hl : w2.log = [.send (.init clientID tok) none] := by subst h6; simp only [h5]; rfl
      have hs : ∃ md, v = .success md ∧ w = w1 := by
        cases v with
        | success md => cases h2; exact ⟨md, rfl, rfl⟩
        | _ => obtain ⟨_, _, _, h7⟩ := run_inv h2; obtain ⟨_, _, _, h8⟩ := run_inv h7; cases h8
      obtain ⟨md, rfl, rfl⟩ := hs
      rcases hd : decodeFrom k.src with ⟨x, r⟩
      have hrec := recv_decodes hh hd
      have hsink : w.sink = w2.sink ∧ w.log = w2.log ++ [.recv (.val (.success md))] := by
        unfold recv at hr
        simp only at hr
        cases hn : nextItem mute w2 <;> rw [hn] at hr <;> simp only [Out.ok.injEq, Prod.mk.injEq, reduceCtorEq, and_false, false_and] at hr
        obtain ⟨⟨rfl, -⟩, rfl⟩ := hr
        exact ⟨rfl, rfl⟩
      cases x with
      | ok v' =>
        obtain ⟨w', h7, h8, _⟩ := hrec
        rw [hr] at h7
        cases h7
        exact ⟨md, r, rfl, h8.inbox, by rw [hsink.1]; exact hk, by rw [hsink.2, hl]; rfl⟩
      | error f =>
        cases f with
        | err e => obtain ⟨e', w', h7, _⟩ := hrec; rw [hr] at h7; simp at h7
        | panic p => obtain ⟨w', h7⟩ := hrec; rw [hr] at h7; cases h7
        | fuel => exact hrec.elim

theorem initConn_none {close : M Bool (Option GoErr)} (h : initConn close tok k s = .ok none w) :
    ∃ k', handShake k = (k', none) ∧ initSession mute close tok (k'.world s) = .ok none w := by
  unfold initConn at h
  rcases hh : handShake k with ⟨k', e⟩
  rw [hh] at h
  cases e with
  | some e => obtain ⟨_, _, _, h3⟩ := run_inv h; cases h3
  | none => exact ⟨k', rfl, h⟩

/-- C44: a connection is returned only if the server's stream begins with a reply to the handshake that is not "no
version", followed by a message that decodes to SUCCESS, and INIT was sent. Every stream, every split into reads.
Missing: that the reply is all of the version (see `c44_false`). -/
theorem c44_init_partial {close : M Bool (Option GoErr)} (hne : k.src.NonEmpty) (h : initConn close tok k s = .ok none w) :
    ∃ v md rest rest', k.src.bytes = v ++ rest.bytes ∧ v ≠ [] ∧ v.length ≤ 4 ∧ v ≠ [0, 0, 0, 0] ∧
      decodeFrom rest = (.ok (.success md), rest') ∧
      w.log = [.send (.init clientID tok) none, .recv (.val (.success md))] := by
  obtain ⟨k', h1, h2⟩ := initConn_none h
  obtain ⟨v, h3, -, -, -, h4⟩ := handShake_none h1
  have h5 := k.src.read_bytes 4
  have h6 := k.src.read_nonEmpty hne (n := 4)
  rw [h3] at h5 h6
  obtain ⟨md, r, h7, -, -, h8⟩ := initSession_none h6 h2
  refine ⟨v, md, k'.src, r, h5.1, ?_, h5.2.2, h4, h7, h8⟩
  rintro rfl
  unfold Source.read at h3
  split at h3
  · simp at h3
  · next s' rest hs =>
    have := hne s' (by rw [hs]; simp)
    split at h3
    · injection h3 with _ h3; injection h3 with h3 _; exact this h3
    · injection h3 with _ h3; injection h3 with h3 _
      have := congrArg List.length h3
      simp at this
      exact hne s' (by rw [hs]; simp) this

/-- C44: when the reply to the handshake arrives in one piece, the server has agreed on a version. -/
theorem c44_agreed_partial {close : M Bool (Option GoErr)} (hne : k.src.NonEmpty) {first : Bytes} {rest : List Bytes} (hs : k.src.segs = first :: rest)
    (h4 : 4 ≤ first.length) (h : initConn close tok k s = .ok none w) :
    first.take 4 ≠ [0, 0, 0, 0] ∧ ∃ md r r', r.bytes = k.src.bytes.drop 4 ∧ decodeFrom r = (.ok (.success md), r') := by
  obtain ⟨k', h1, h2⟩ := initConn_none h
  obtain ⟨v, h3, -, -, -, h5⟩ := handShake_none h1
  have h6 := k.src.read_bytes 4
  have h7 := k.src.read_nonEmpty hne (n := 4)
  have hv : v = first.take 4 := by
    unfold Source.read at h3
    rw [hs] at h3
    simp only at h3
    split at h3 <;> (injection h3 with _ h3; injection h3 with h3 _; rw [← h3])
    · exact (List.take_of_length_le (by omega)).symm
  rw [h3] at h6 h7
  obtain ⟨md, r, h8, -⟩ := initSession_none h7 h2
  refine ⟨hv ▸ h5, md, k'.src, r, ?_, h8⟩
  rw [h6.1]
  have : v.length = 4 := by rw [hv]; simp; omega
  rw [← this, List.drop_left]

/-- C44, C66: opening always returns, unless the server sends a message that makes the decoder panic; when it
returns an error the socket has been closed, otherwise it is open. -/
theorem c44_c66_total (hcalm : ∀ i ∈ (handShake k).1.src.items, i.calm) :
    ∃ e w, initConn (closeN mute (n + 1)) tok k s = .ok e w ∧ w.closed = e.isSome := by
  unfold initConn
  rcases hh : handShake k with ⟨k', e⟩
  rw [hh] at hcalm
  have hb : Bare [] (k'.world s) := ⟨rfl, rfl, hcalm, List.nil_prefix⟩
  cases e with
  | some e =>
    obtain ⟨e', w', h1, _, rfl, h3⟩ := fine_closeThen hb n (some e)
    exact ⟨_, _, h1, h3⟩
  | none =>
    obtain ⟨e', w', h1, _, h3⟩ := fine_initSession hb rfl n tok
    exact ⟨_, _, h1, h3⟩

/-- A socket that takes everything, on which the server sends this. -/
def sock (segs : List Bytes) (err : GoErr) : Sock := ⟨⟨[], none⟩, ⟨segs, err⟩, false⟩

/-- SUCCESS without metadata, as a message. -/
def successWire : Bytes := [0, 3, 0xB1, 0x70, 0xA0, 0, 0]

theorem noToken : authToken [] [] = [([115, 99, 104, 101, 109, 101], .str [110, 111, 110, 101])] := rfl

/-- A server that agrees on version 1 and answers INIT, in one read or in many. -/
theorem c44_example : ∃ w, initConn (closeN mute 1) (authToken [] []) (sock [[0, 0, 0, 1, 0], [3, 0xB1], [0x70, 0xA0, 0], [0]] .eof) false = .ok none w := by
  obtain ⟨e, w, h1, h2⟩ := Out.of_test (o := initConn (closeN mute 1) (authToken [] []) (sock [[0, 0, 0, 1, 0], [3, 0xB1], [0x70, 0xA0, 0], [0]] .eof) false)
    (p := fun e _ => e.isNone) (by decide +kernel)
  cases e with
  | none => exact ⟨w, h1⟩
  | some e => cases h2

/-- C44 is false: the server never names a version, it sends a single byte and answers INIT with SUCCESS; the connection is
returned. -/
theorem c44_false : ∃ w, initConn (closeN mute 1) (authToken [] []) (sock [[0], successWire] .eof) false = .ok none w := by
  obtain ⟨e, w, h1, h2⟩ := Out.of_test (o := initConn (closeN mute 1) (authToken [] []) (sock [[0], successWire] .eof) false)
    (p := fun e _ => e.isNone) (by decide +kernel)
  cases e with
  | none => exact ⟨w, h1⟩
  | some e => cases h2

/-! ## C45 -/

theorem Sink.write_none {k : Sink} (h : k.budget = none) (p : Bytes) : k.write p = (⟨k.out ++ p, none⟩, true) := by
  obtain ⟨out, b⟩ := k
  cases h
  rfl

/-- C45: when the first read returns at least the four bytes of the version, the handshake succeeds exactly when they
are not zero, and the rest of the stream is left for INIT. Any further split. Missing: shorter reads. -/
theorem c45_one_read_partial (hb : k.sink.budget = none) {first : Bytes} {rest : List Bytes} (hs : k.src.segs = first :: rest)
    (h4 : 4 ≤ first.length) : ((handShake k).2 = none ↔ first.take 4 ≠ [0, 0, 0, 0]) ∧ (handShake k).1.src.bytes = k.src.bytes.drop 4 := by
  have hr : ∃ r, k.src.read 4 = (r, first.take 4, none) := by
    unfold Source.read
    rw [hs]
    simp only
    split
    · exact ⟨_, by rw [List.take_of_length_le (by omega)]⟩
    · exact ⟨_, rfl⟩
  obtain ⟨r, hr⟩ := hr
  have h6 := (k.src.read_bytes 4).1
  rw [hr] at h6
  have hl : (first.take 4).length = 4 := by simp; omega
  have hd : r.bytes = k.src.bytes.drop 4 := by
    rw [h6]
    simp only
    have := List.drop_left (l₁ := first.take 4) (l₂ := r.bytes)
    rw [hl] at this
    exact this.symm
  have he : handShake k = if first.take 4 = [0, 0, 0, 0] then
      (⟨⟨k.sink.out ++ handShakeBytes, none⟩, r, k.connErr⟩, some (.new "Server responded with no supported version"))
      else (⟨⟨k.sink.out ++ handShakeBytes, none⟩, r, k.connErr⟩, none) := by
    unfold handShake Sock.write
    rw [Sink.write_none hb]
    simp only
    rw [if_neg (by decide)]
    unfold Sock.read
    simp only [hr]
    rw [if_neg (by omega)]
  rw [he]
  split
  · next h => simp [h, hd]
  · next h => simp [h, hd]

/-- C45: no reply is an error. -/
theorem c45_no_reply (hs : k.src.segs = []) : (handShake k).2 ≠ none := by
  intro h
  obtain ⟨v, h3, -⟩ := handShake_none (k := k) (k' := (handShake k).1) (Prod.ext rfl h)
  unfold Source.read at h3
  rw [hs] at h3
  simp at h3

/-- Four bytes in one read: version 1 is accepted, version 0 is not. -/
example : (handShake (sock [[0, 0, 0, 1]] .eof)).2 = none ∧ (handShake (sock [[0, 0, 0, 0]] .eof)).2 ≠ none :=
  ⟨((c45_one_read_partial rfl rfl (by decide)).1).mpr (by decide), fun h => ((c45_one_read_partial (k := sock [[0, 0, 0, 0]] .eof) rfl rfl (by decide)).1).mp h (by decide)⟩

/-- C45 is false. The refusal 00 00 00 00 in two reads is taken for success; version 1 in two reads is accepted by the
handshake, but the rest of it is taken for the length of a message and opening fails, though the server agreed and
answered INIT with SUCCESS. -/
theorem c45_false : (handShake (sock [[0, 0], [0, 0]] .eof)).2 = none ∧
    ∃ e w, initConn (closeN mute 1) (authToken [] []) (sock [[0, 0], [0, 1], successWire] .eof) false = .ok (some e) w := by
  refine ⟨rfl, ?_⟩
  obtain ⟨e, w, h1, h2⟩ := Out.of_test (o := initConn (closeN mute 1) (authToken [] []) (sock [[0, 0], [0, 1], successWire] .eof) false)
    (p := fun e _ => e.isSome) (by decide +kernel)
  cases e with
  | some e => exact ⟨e, w, h1⟩
  | none => cases h2

/-! ## C46 -/

/-- What INIT must say: no credentials without a user name. -/
def credentials (user password : Str) : List (Str × Str) :=
  if user = [] then [(txt "scheme", txt "none")]
  else [(txt "scheme", txt "basic"), (txt "principal", user), (txt "credentials", password)]

/-- A map of strings. -/
def strs (l : List (Str × Str)) : KVs := l.map fun x => (x.1, .str x.2)

/-- … in PackStream. -/
def psStrs (l : List (Str × Str)) : List (Str × PS) := l.map fun x => (x.1, .str x.2)

theorem credentials_eq (user password : Str) : credentials user password =
    if user = [] then [([115, 99, 104, 101, 109, 101], [110, 111, 110, 101])]
    else [([115, 99, 104, 101, 109, 101], [98, 97, 115, 105, 99]), ([112, 114, 105, 110, 99, 105, 112, 97, 108], user),
      ([99, 114, 101, 100, 101, 110, 116, 105, 97, 108, 115], password)] := rfl

theorem clientID_eq : clientID = txt "GolangNeo4jBolt/1.0" := rfl

theorem authToken_strs (user password : Str) : authToken user password = strs (credentials user password) := by
  rw [credentials_eq]
  unfold authToken strs
  split <;> rfl

/-- The string of a string value. -/
def Val.text : Val → Str
  | .str s => s
  | _ => []

theorem perm_strs {tok : KVs} {l : List (Str × Str)} (h : tok.Perm (strs l)) : ∃ l', l'.Perm l ∧ tok = strs l' := by
  refine ⟨tok.map fun x => (x.1, x.2.text), ?_, ?_⟩
  · have := h.map fun x : Str × Val => (x.1, x.2.text)
    simpa [strs, Val.text, Function.comp_def] using this
  · have ht : ∀ x ∈ tok, x.2 = .str x.2.text := by
      intro x hx
      have := h.mem_iff.mp hx
      unfold strs at this
      obtain ⟨y, _, rfl⟩ := List.mem_map.mp this
      rfl
    clear h
    induction tok with
    | nil => rfl
    | cons x t ih =>
      simp only [strs, List.map_cons]
      rw [← ht x (by simp)]
      congr 1
      exact ih fun y hy => ht y (by simp [hy])

theorem means_strs {l : List (Str × Str)} {ps : List (Str × PS)} (h : MeansKVs (strs l) ps) : ps = psStrs l := by
  induction l generalizing ps with
  | nil => exact h
  | cons x t ih =>
    obtain ⟨q, qs, h1, h2, rfl⟩ := h
    have : q = .str x.2 := h1
    rw [this, ih h2]
    rfl

theorem all_strs {Q : Val → Prop} {l : List (Str × Str)} (h : ∀ x ∈ l, Val.All Q (.str x.2)) : Val.AllKVs Q (strs l) := by
  induction l with
  | nil => trivial
  | cons x t ih => exact ⟨h x (by simp), ih fun y hy => h y (by simp [hy])⟩

theorem sendable_init {l : List (Str × Str)} (hk : (l.map Prod.fst).Nodup) (hl : l.length ≤ 100) (hs : ∀ x ∈ l, x.1.length ≤ 65535 ∧ x.2.length ≤ 65535) :
    Sendable 65535 (.init clientID (strs l)) := by
  have e : (2:Nat)^32 = 4294967296 := by decide
  have hkeys : (strs l).map Prod.fst = l.map Prod.fst := by simp [strs, Function.comp_def]
  have hc : clientID.length = 19 := rfl
  refine ⟨⟨?_, ?_⟩, ⟨trivial, ?_⟩, ⟨?_, ?_⟩, by decide, by decide, .inr ⟨by decide, ?_, ?_⟩⟩
  · show ((strs l).map Prod.fst).Nodup
    rw [hkeys]; exact hk
  · exact all_strs fun _ _ => trivial
  · exact all_strs fun _ _ => trivial
  · intro n hn
    simp only [Val.sizes, List.mem_cons, keySizes, List.mem_map] at hn
    rw [e]
    rcases hn with rfl | rfl | ⟨x, hx, rfl⟩
    · omega
    · unfold strs; rw [List.length_map]; omega
    · unfold strs at hx
      obtain ⟨y, hy, rfl⟩ := List.mem_map.mp hx
      have := (hs y hy).1
      simp only; omega
  · refine all_strs fun x hx => ?_
    intro n hn
    simp only [Val.sizes, List.mem_singleton] at hn
    have := (hs x hx).2
    rw [e]; omega
  · intro x hx
    simp only [Val.ownStrings, List.mem_cons, keysOf, hkeys] at hx
    rcases hx with rfl | hx
    · omega
    · obtain ⟨y, hy, rfl⟩ := List.mem_map.mp hx
      exact (hs y hy).1
  · refine all_strs fun x hx => ?_
    intro s h
    simp only [Val.ownStrings, List.mem_singleton] at h
    subst h
    exact (hs x hx).2

theorem sendable_token {user password : Str} (hu : user.length ≤ 65535) (hp : password.length ≤ 65535) (h : tok.Perm (authToken user password)) :
    Sendable 65535 (.init clientID tok) ∧ ∀ q, Means (.init clientID tok) q →
      ∃ ps, ps.Perm (psStrs (credentials user password)) ∧ q = .struct 0x01 [.str clientID, .map ps] := by
  rw [authToken_strs] at h
  obtain ⟨l, hl, rfl⟩ := perm_strs h
  have hlen : (credentials user password).length ≤ 3 := by rw [credentials_eq]; split <;> simp
  have hkeys : ((credentials user password).map Prod.fst).Nodup := by rw [credentials_eq]; split <;> simp
  constructor
  · refine sendable_init ((hl.map Prod.fst).nodup_iff.mpr hkeys) (by rw [hl.length_eq]; omega) fun x hx => ?_
    have hx := hl.mem_iff.mp hx
    rw [credentials_eq] at hx
    split at hx <;> simp at hx
    · subst hx; simp
    · rcases hx with rfl | rfl | rfl <;> simp <;> assumption
  · rintro q ⟨ps, h1, rfl⟩
    rw [means_strs h1]
    exact ⟨_, hl.map _, rfl⟩

/-- C46: user name and password of at most 65535 bytes each, the map visited in any order: after the handshake the
driver writes one message, INIT with the client id and exactly the credentials. Nothing else is written when opening
succeeds. Missing: longer ones (see `c46_false`). -/
theorem c46_init_partial {user password : Str} (hu : user.length ≤ 65535) (hp : password.length ≤ 65535) (ht : tok.Perm (authToken user password))
    (hb : k.sink.budget = none) (hne : k.src.NonEmpty) (hh : handShake k = (k', none)) (hcalm : ∀ i ∈ k'.src.items, i.calm) :
    ∃ e w wire more p ps, initConn (closeN mute (n + 1)) tok k s = .ok e w ∧
      w.sink.out = k.sink.out ++ handShakeBytes ++ wire ++ more ∧ (e = none → more = []) ∧
      ps.Perm (psStrs (credentials user password)) ∧
      Packs fullRange (.struct 0x01 [.str (txt "GolangNeo4jBolt/1.0"), .map ps]) p ∧ Framed p wire := by
  obtain ⟨hsend, hmeans⟩ := sendable_token hu hp ht
  obtain ⟨v, hr, -, hw, hout, -⟩ := handShake_none hh
  rw [Sink.write_none hb] at hw
  have hb' : k'.sink = ⟨k.sink.out ++ handShakeBytes, none⟩ := hw
  obtain ⟨q, p, wire, h1, h2, h3, h4⟩ := sendable_wire hsend (k.sink.out ++ handShakeBytes)
  obtain ⟨ps, h5, rfl⟩ := hmeans q h1
  have hsend := send_mute (w := k'.world s) (.init clientID tok)
  have henc : encodeTo (k'.world s).chunkSize (k'.world s).sink (.init clientID tok) = (⟨k.sink.out ++ handShakeBytes ++ wire, none⟩, none) := by
    show encodeTo 65535 k'.sink _ = _
    rw [hb', h4]
  rw [henc] at hsend
  obtain ⟨e, w, h6, h7, h8⟩ := fine_initSession' (out := k.sink.out ++ handShakeBytes ++ wire) hsend ⟨rfl, rfl, hcalm, List.prefix_refl _⟩ rfl n
  obtain ⟨more, hmore⟩ := h7.prefix_
  refine ⟨e, w, wire, more, p, ps, ?_, hmore.symm, ?_, h5, h2, h3⟩
  · unfold initConn
    rw [hh]
    exact h6
  · rintro rfl
    have hne' := k.src.read_nonEmpty hne (n := 4)
    rw [hr] at hne'
    obtain ⟨md, r, -, -, h9, -⟩ := initSession_none hne' h6
    rw [hb', h4] at h9
    have := congrArg (fun x => x.1.out) h9
    simp only at this
    rw [← hmore] at this
    simpa using this

/-- User "u", password "p", a server that accepts them. -/
example : ∃ e w wire more p ps, initConn (closeN mute 1) (authToken (txt "u") (txt "p")) (sock [[0, 0, 0, 1], successWire] .eof) false = .ok e w ∧
      w.sink.out = [] ++ handShakeBytes ++ wire ++ more ∧ (e = none → more = []) ∧
      ps.Perm (psStrs [(txt "scheme", txt "basic"), (txt "principal", txt "u"), (txt "credentials", txt "p")]) ∧
      Packs fullRange (.struct 0x01 [.str (txt "GolangNeo4jBolt/1.0"), .map ps]) p ∧ Framed p wire := by
  refine c46_init_partial (k := sock [[0, 0, 0, 1], successWire] .eof) (k' := ⟨⟨handShakeBytes, none⟩, ⟨[successWire], .eof⟩, false⟩) (by decide) (by decide) (.refl _) rfl ?_ rfl ?_
  · unfold Source.NonEmpty; decide
  · have : Source.items ⟨[successWire], .eof⟩ = [.val (.success [])] := by set_option maxRecDepth 10000 in rfl
    intro i hi
    rw [this] at hi
    cases List.mem_singleton.mp hi
    trivial

/-- The last write is `p`. -/
def Ends (a : Ops) (p : Bytes) : Prop := ∃ pre, a.writes = pre ++ [p]

theorem Ends.seq {a b : Ops} {p : Bytes} (ha : a.err = none) (h : Ends b p) : Ends (a.seq b) p := by
  obtain ⟨pre, h⟩ := h
  refine ⟨a.writes ++ pre, ?_⟩
  simp only [Ops.seq, ha, h, List.append_assoc]

theorem Ends.done {a : Ops} {p : Bytes} (h : Ends a p) (ha : a.err = none) : Ends (a.seq .done) p := by
  obtain ⟨pre, h⟩ := h
  refine ⟨pre, ?_⟩
  simp [Ops.seq, ha, h, Ops.done]

theorem Ends.wrapErr {a : Ops} {p : Bytes} {msg : String} (h : Ends a p) : Ends (a.wrapErr msg) p := h

theorem tailLen_last (cs r : Nat) (ps : List Bytes) (p : Bytes) : p.length - cs ≤ tailLen cs r (ps ++ [p]) := by
  induction ps generalizing r with
  | nil => simp only [List.nil_append, tailLen]; split <;> omega
  | cons x t ih => exact ih _

/-- C46 is false: for every password of 131071 bytes or more, INIT is reported as sent but what was written is not a
chunked message with its payload. -/
theorem c46_false (password : Str) (h1 : 131071 ≤ password.length) (h2 : password.length < 2^32) (out : Bytes) :
    ∃ wire, encodeTo 65535 ⟨out, none⟩ (.init clientID (authToken (txt "u") password)) = (⟨out ++ wire, none⟩, none) ∧
      ¬ Framed (payload (.init clientID (authToken (txt "u") password))) wire := by
  have e : (2:Nat)^32 = 4294967296 := by decide
  have hs : Val.Supported (.init clientID (authToken (txt "u") password)) := by
    rw [authToken_strs]
    refine ⟨?_, all_strs fun x hx => ?_⟩
    · intro n hn
      have hn : n ∈ [19, 3, 6, 9, 11] := hn
      simp at hn; omega
    · have hx : x ∈ [(txt "scheme", txt "basic"), (txt "principal", txt "u"), (txt "credentials", password)] := hx
      intro n hn
      simp only [Val.sizes, List.mem_singleton] at hn
      subst hn
      simp only [List.mem_cons, List.not_mem_nil, or_false] at hx
      rcases hx with rfl | rfl | rfl
      · show (txt "basic").length < 2^32
        decide
      · show (txt "u").length < 2^32
        decide
      · exact h2
  obtain ⟨wire, h3, h4⟩ := c06_framed_iff_partial (cs := 65535) (by decide) (by decide) out hs
  refine ⟨wire, h3, fun hf => ?_⟩
  have h5 := h4.mp hf
  obtain ⟨pre, hpre⟩ : ∃ pre, (encOps (.init clientID (authToken (txt "u") password))).writes = pre ++ [password] := by
    have hw : Ends (encOps (.str password)) password := ⟨[[0xD2], be 4 password.length], writes_str (s := password) (by omega) h2⟩
    have he : (encOps (.str password)).err = none := by
      simp only [encOps, encodeString]
      rw [e] at h2
      rw [if_neg (by omega), if_neg (by omega), if_neg (by omega), if_pos (by omega)]
      rfl
    have hk : Ends (encKVs (authToken (txt "u") password)) password :=
      .seq rfl (.seq rfl (.seq rfl (.seq rfl (.seq rfl (hw.done he)))))
    exact Ends.seq rfl (.seq rfl (.wrapErr (.seq rfl hk)))
  have := tailLen_last 65535 0 pre password
  rw [← hpre] at this
  omega

end Bolt
