import Verif.Props.Opening2

/-!
# C44, C46, C47 from the connection string to the session
-/

namespace Bolt
open PackStream

variable {dial dial' : Config → Except GoErr Sock} {order : KVs → KVs} {n : Nat} {u : URL} {s : Bool} {k k' : Sock} {w : World Bool} {c : Config}

/-- User name and password in the URL; both empty when it has none. -/
def URL.login (u : URL) : Str × Str :=
  match u.user with
  | none => ([], [])
  | some (n, p) => (n, p.getD [])

theorem login_config (h : parseURL newConfig u = .ok c) : u.login = (c.user, c.password) := by
  have h1 := (c47_config_partial h).1
  unfold URL.login
  cases hu : u.user with
  | none => rw [hu] at h1; rw [h1.1, h1.2]
  | some x =>
    obtain ⟨a, b⟩ := x
    rw [hu] at h1
    simp only at h1 ⊢
    rw [h1.1, ← h1.2]; rfl

/-- C46 for OpenNeo: user name and password of the connection string of at most 65535 bytes each, the map visited in any
order: what is written after the handshake begins with INIT with the client id and exactly these credentials, and is
nothing else when opening succeeds. Missing: longer ones (see `c46_false`). -/
theorem c46_open_partial (hp : parseURL newConfig u = .ok c) (hd : dial c = .ok k) (ho : ∀ l, (order l).Perm l)
    (h1 : u.login.1.length ≤ 65535) (h2 : u.login.2.length ≤ 65535) (hb : k.sink.budget = none) (hne : k.src.NonEmpty)
    (hh : handShake k = (k', none)) (hcalm : ∀ i ∈ k'.src.items, i.calm) :
    ∃ e w wire more p ps, newBoltConn dial order (n + 1) u s = .ok (.ok e w) ∧
      w.sink.out = k.sink.out ++ handShakeBytes ++ wire ++ more ∧ (e = none → more = []) ∧
      ps.Perm (psStrs (credentials u.login.1 u.login.2)) ∧
      Packs fullRange (.struct 0x01 [.str (txt "GolangNeo4jBolt/1.0"), .map ps]) p ∧ Framed p wire := by
  rw [login_config hp] at h1 h2 ⊢
  obtain ⟨e, w, wire, more, p, ps, h3, h4⟩ := c46_init_partial (n := n) (s := s) h1 h2 (ho (authToken c.user c.password)) hb hne hh hcalm
  exact ⟨e, w, wire, more, p, ps, by unfold newBoltConn; simp only [hp, hd, h3], h4⟩

/-- C44 for OpenNeo: a connection is only returned for a connection string that is accepted, when dialling succeeded, the
server named a version in its first read of at most four bytes that is not 0, and answered INIT with SUCCESS. Missing:
the version may be less than four bytes (see `c44_false`). -/
theorem c44_open_partial (hne : ∀ c k, dial c = .ok k → k.src.NonEmpty) (h : newBoltConn dial order n u s = .ok (.ok none w)) :
    ∃ c k, parseURL newConfig u = .ok c ∧ dial c = .ok k ∧
      ∃ v md rest rest', k.src.bytes = v ++ rest.bytes ∧ v ≠ [] ∧ v.length ≤ 4 ∧ v ≠ [0, 0, 0, 0] ∧ decodeFrom rest = (.ok (.success md), rest') := by
  unfold newBoltConn at h
  cases hp : parseURL newConfig u with
  | error e => rw [hp] at h; cases h
  | ok c =>
    simp only [hp] at h
    cases hd : dial c with
    | error e => rw [hd] at h; cases h
    | ok k =>
      simp only [hd, Except.ok.injEq] at h
      obtain ⟨v, md, rest, rest', h1, h2, h3, h4, h5, _⟩ := c44_init_partial (hne c k hd) h
      exact ⟨c, k, rfl, hd, v, md, rest, rest', h1, h2, h3, h4, h5⟩

/-- C47 for OpenNeo: a connection string that is not accepted is reported, and nothing is dialled. -/
theorem c47_refused (h : ¬ ∃ c, parseURL newConfig u = .ok c) :
    ∃ e, ∀ dial, newBoltConn dial order n u s = .error e := by
  cases hp : parseURL newConfig u with
  | ok c => exact absurd ⟨c, hp⟩ h
  | error e => exact ⟨_, fun dial => by unfold newBoltConn; rw [hp]⟩

/-- C47 for OpenNeo: one accepted is dialled with the options it sets (`c47_config_partial`), and nothing else is: with
another network that answers the same there, the result is the same. When dialling fails, so does opening. -/
theorem c47_dialled (hp : parseURL newConfig u = .ok c) :
    (dial c = dial' c → newBoltConn dial order n u s = newBoltConn dial' order n u s) ∧
    ∀ e, dial c = .error e → ∃ e', newBoltConn dial order n u s = .error e' ∧ e'.innerMost = e.innerMost := by
  constructor
  · intro h
    unfold newBoltConn
    simp only [hp, h]
  · intro e h
    refine ⟨.wrap "An error occurred initializing connection" (some (.wrap "An error occurred dialing to neo4j" (some e))), by unfold newBoltConn; simp only [hp, h], ?_⟩
    simp [GoErr.innerMost]

/-- `bolt://u:p@host` -/
def userURL : URL where
  scheme := txt "bolt"
  user := some (txt "u", some (txt "p"))
  host := txt "host"
  query _ := []

theorem userURL_config : parseURL newConfig userURL = .ok { newConfig with user := txt "u", password := txt "p" } := rfl

/-- A server that accepts user "u" with password "p". -/
example : ∃ e w wire more p ps, newBoltConn (fun c => if c.user = txt "u" then .ok (sock [[0, 0, 0, 1], successWire] .eof) else .error .eof) id 1 userURL false = .ok (.ok e w) ∧
      w.sink.out = [] ++ handShakeBytes ++ wire ++ more ∧ (e = none → more = []) ∧
      ps.Perm (psStrs [(txt "scheme", txt "basic"), (txt "principal", txt "u"), (txt "credentials", txt "p")]) ∧
      Packs fullRange (.struct 0x01 [.str (txt "GolangNeo4jBolt/1.0"), .map ps]) p ∧ Framed p wire := by
  refine c46_open_partial (k := sock [[0, 0, 0, 1], successWire] .eof) (k' := ⟨⟨handShakeBytes, none⟩, ⟨[successWire], .eof⟩, false⟩) userURL_config rfl (fun l => .refl _)
    (by decide) (by decide) rfl ?_ rfl ?_
  · unfold Source.NonEmpty; decide
  · have : Source.items ⟨[successWire], .eof⟩ = [.val (.success [])] := by set_option maxRecDepth 10000 in rfl
    intro i hi
    rw [this] at hi
    cases List.mem_singleton.mp hi
    trivial

/-- A user without a password is refused. -/
example : ∃ e, ∀ dial, newBoltConn dial id 1 { userURL with user := some (txt "u", none) } false = .error e :=
  c47_refused fun ⟨c, h⟩ => by cases h

end Bolt
