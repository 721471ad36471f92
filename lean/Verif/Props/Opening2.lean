import Verif.Props.Opening

/-!
# C47: connection strings
-/

namespace Bolt

/-- The number written in decimal. -/
inductive Decimal : Str → Nat → Prop
  | one {d : Nat} : d < 10 → Decimal [UInt8.ofNat (48 + d)] d
  | snoc {s : Str} {n d : Nat} : Decimal s n → d < 10 → Decimal (s ++ [UInt8.ofNat (48 + d)]) (10 * n + d)

/-- The string is an integer in decimal, with or without a sign. -/
def IsInteger (s : Str) (v : _root_.Int) : Prop :=
  ∃ n, Decimal s n ∧ v = n ∨ (∃ t, s = 43 :: t ∧ Decimal t n ∧ v = n) ∨ ∃ t, s = 45 :: t ∧ Decimal t n ∧ v = -n

/-- How an option is switched on: by 1, or anything that begins with t or T. -/
def SaysYes (s : Str) : Prop := s = txt "1" ∨ ∃ t, s = txt "t" ++ t ∨ s = txt "T" ++ t

/-- "bolt" in any case. -/
def IsBolt : Str → Prop
  | [b, o, l, t] => b ∈ txt "bB" ∧ o ∈ txt "oO" ∧ l ∈ txt "lL" ∧ t ∈ txt "tT"
  | _ => False

theorem digit_spec (b : UInt8) (d : Nat) : digit b = some d ↔ d < 10 ∧ b = UInt8.ofNat (48 + d) := by
  unfold digit
  constructor
  · intro h
    split at h
    · next hb =>
      injection h with h
      subst h
      have h1 : (48 : UInt8).toNat ≤ b.toNat := hb.1
      have h2 : b.toNat ≤ (57 : UInt8).toNat := hb.2
      have e1 : (48 : UInt8).toNat = 48 := rfl
      have e2 : (57 : UInt8).toNat = 57 := rfl
      refine ⟨by omega, ?_⟩
      rw [show 48 + (b.toNat - 48) = b.toNat by omega]
      simp
    · cases h
  · rintro ⟨h, rfl⟩
    have : d = 0 ∨ d = 1 ∨ d = 2 ∨ d = 3 ∨ d = 4 ∨ d = 5 ∨ d = 6 ∨ d = 7 ∨ d = 8 ∨ d = 9 := by omega
    rcases this with rfl | rfl | rfl | rfl | rfl | rfl | rfl | rfl | rfl | rfl <;> rfl

theorem digits_snoc (acc : Nat) (s : Str) (b : UInt8) : digits acc (s ++ [b]) =
    match digits acc s, digit b with
    | some n, some d => some (n * 10 + d)
    | _, _ => none := by
  induction s generalizing acc with
  | nil => simp only [List.nil_append, digits]; cases digit b <;> rfl
  | cons x t ih =>
    simp only [List.cons_append, digits]
    cases digit x with
    | none => rfl
    | some d => exact ih _

theorem decimal_iff (s : Str) (n : Nat) : Decimal s n ↔ s ≠ [] ∧ digits 0 s = some n := by
  constructor
  · intro h
    induction h with
    | @one d hd =>
      refine ⟨by simp, ?_⟩
      simp only [digits, (digit_spec _ d).mpr ⟨hd, rfl⟩, Nat.zero_mul, Nat.zero_add]
    | @snoc s n d _ hd ih =>
      refine ⟨by simp, ?_⟩
      rw [digits_snoc, ih.2, (digit_spec _ d).mpr ⟨hd, rfl⟩]
      simp only [Nat.mul_comm]
  · rintro ⟨hne, h⟩
    generalize hl : s.length = l
    induction l generalizing s n with
    | zero => exact absurd (List.eq_nil_of_length_eq_zero hl) hne
    | succ l ih =>
      obtain ⟨t, b, rfl⟩ : ∃ t b, s = t ++ [b] := ⟨s.dropLast, s.getLast hne, (List.dropLast_append_getLast hne).symm⟩
      rw [digits_snoc] at h
      cases ht : digits 0 t with
      | none => rw [ht] at h; cases h
      | some m =>
        cases hb : digit b with
        | none => rw [ht, hb] at h; cases h
        | some d =>
          rw [ht, hb] at h
          injection h with h
          obtain ⟨hd, rfl⟩ := (digit_spec b d).mp hb
          by_cases hnil : t = []
          · subst hnil
            cases ht
            have : n = d := by omega
            subst this
            exact .one hd
          · have := ih t m hnil ht (by simpa using hl)
            rw [show n = 10 * m + d by omega]
            exact .snoc this hd

theorem decimal_first {b : UInt8} {t : Str} {n : Nat} (h : Decimal (b :: t) n) : b ≠ 43 ∧ b ≠ 45 := by
  have := ((decimal_iff _ _).mp h).2
  unfold digits at this
  constructor <;> rintro rfl <;> simp [digit] at this

theorem signed_iff (neg : Bool) (t : Str) (v : _root_.Int) : signed neg t = some v ↔
    ((∃ n : Nat, Decimal t n ∧ v = if neg then -(n : _root_.Int) else n) ∧ IsInt64 v) := by
  have e : (2 : Nat) ^ 63 = 9223372036854775808 := by decide
  have e' : (2 : _root_.Int) ^ 63 = 9223372036854775808 := by decide
  unfold signed
  by_cases ht : t = []
  · subst ht
    rw [if_pos rfl]
    refine ⟨fun h => (by cases h), ?_⟩
    rintro ⟨⟨n, h, _⟩, _⟩
    exact absurd rfl ((decimal_iff _ _).mp h).1
  · rw [if_neg ht]
    cases hd : digits 0 t with
    | none =>
      refine ⟨fun h => (by cases h), ?_⟩
      rintro ⟨⟨n, h, _⟩, _⟩
      exact absurd ((decimal_iff _ _).mp h).2 (by rw [hd]; simp)
    | some m =>
      have hm : ∀ n, Decimal t n → n = m := fun n h => by
        have := ((decimal_iff _ _).mp h).2
        rw [hd] at this
        injection this with this; exact this.symm
      have hm' : Decimal t m := (decimal_iff _ _).mpr ⟨ht, hd⟩
      unfold IsInt64
      rw [e']
      cases neg with
      | true =>
        simp only [if_true, e]
        constructor
        · intro h
          split at h
          · injection h with h; subst h; exact ⟨⟨m, hm', rfl⟩, by omega⟩
          · cases h
        · rintro ⟨⟨n, h, rfl⟩, hr⟩
          have := hm n h
          subst this
          rw [if_pos (by omega)]
      | false =>
        simp only [Bool.false_eq_true, if_false, e]
        constructor
        · intro h
          split at h
          · injection h with h; subst h; exact ⟨⟨m, hm', rfl⟩, by omega⟩
          · cases h
        · rintro ⟨⟨n, h, rfl⟩, hr⟩
          have := hm n h
          subst this
          rw [if_pos (by omega)]

theorem atoi_iff (s : Str) (v : _root_.Int) : atoi s = some v ↔ (IsInteger s v ∧ IsInt64 v) := by
  unfold atoi
  split
  · next t =>
    rw [signed_iff]
    constructor
    · rintro ⟨⟨n, h, rfl⟩, hr⟩; exact ⟨⟨n, .inr (.inr ⟨t, rfl, h, rfl⟩)⟩, hr⟩
    · rintro ⟨⟨n, h | ⟨t', h, _⟩ | ⟨t', h, h2, h3⟩⟩, hr⟩
      · exact absurd rfl (decimal_first h.1).2
      · cases h
      · cases h; exact ⟨⟨n, h2, h3⟩, hr⟩
  · next t =>
    rw [signed_iff]
    constructor
    · rintro ⟨⟨n, h, rfl⟩, hr⟩; exact ⟨⟨n, .inr (.inl ⟨t, rfl, h, rfl⟩)⟩, hr⟩
    · rintro ⟨⟨n, h | ⟨t', h, h2, h3⟩ | ⟨t', h, _⟩⟩, hr⟩
      · exact absurd rfl (decimal_first h.1).1
      · cases h; exact ⟨⟨n, h2, h3⟩, hr⟩
      · cases h
  · next t h1 h2 =>
    rw [signed_iff]
    constructor
    · rintro ⟨⟨n, h, rfl⟩, hr⟩; exact ⟨⟨n, .inl ⟨h, rfl⟩⟩, hr⟩
    · rintro ⟨⟨n, h | ⟨t', h, _⟩ | ⟨t', h, _⟩⟩, hr⟩
      · exact ⟨⟨n, h⟩, hr⟩
      · exact absurd h (h2 t')
      · exact absurd h (h1 t')

theorem decimal_unique {s : Str} {m n : Nat} (h1 : Decimal s m) (h2 : Decimal s n) : m = n := by
  have h1 := ((decimal_iff _ _).mp h1).2
  have h2 := ((decimal_iff _ _).mp h2).2
  rw [h1] at h2
  injection h2

/-- A string is at most one integer. -/
theorem isInteger_unique {s : Str} {v v' : _root_.Int} (h : IsInteger s v) (h' : IsInteger s v') : v = v' := by
  obtain ⟨n, ⟨h, rfl⟩ | ⟨t, rfl, h, rfl⟩ | ⟨t, rfl, h, rfl⟩⟩ := h <;> obtain ⟨n', ⟨h', rfl⟩ | ⟨t', e, h', rfl⟩ | ⟨t', e, h', rfl⟩⟩ := h'
  · rw [decimal_unique h h']
  · subst e; exact absurd rfl (decimal_first h).1
  · subst e; exact absurd rfl (decimal_first h).2
  · exact absurd rfl (decimal_first h').1
  · cases e; rw [decimal_unique h h']
  · cases e
  · exact absurd rfl (decimal_first h').2
  · cases e
  · cases e; rw [decimal_unique h h']

theorem lower_iff (b : UInt8) (x : UInt8) (h : 97 ≤ x ∧ x ≤ 122) : lower b = x ↔ b = x ∨ b = x - 32 := by
  have key : ∀ x : Fin 256, 97 ≤ x.val ∧ x.val ≤ 122 → ∀ b : Fin 256, (lower (UInt8.ofNat b.val) = UInt8.ofNat x.val ↔ UInt8.ofNat b.val = UInt8.ofNat x.val ∨ UInt8.ofNat b.val = UInt8.ofNat x.val - 32) := by
    decide +kernel
  have := key ⟨x.toNat, x.toNat_lt⟩ ⟨h.1, h.2⟩ ⟨b.toNat, b.toNat_lt⟩
  simpa using this

theorem isTrue_iff (s : Str) : isTrue s = true ↔ SaysYes s := by
  unfold isTrue SaysYes toLower
  have e1 : txt "1" = [49] := rfl
  have e2 : txt "t" = [116] := rfl
  have e3 : txt "T" = [84] := rfl
  rw [e1, e2, e3]
  cases s with
  | nil => simp
  | cons b t =>
    have := lower_iff b 116 (by decide)
    have e4 : (116 : UInt8) - 32 = 84 := rfl
    rw [e4] at this
    simp only [List.map_cons, List.head?_cons, Bool.or_eq_true, beq_iff_eq, Option.some.injEq, this, List.cons_append, List.nil_append, List.cons.injEq]
    constructor
    · rintro ((rfl | rfl) | h)
      · exact .inr ⟨t, .inl ⟨rfl, rfl⟩⟩
      · exact .inr ⟨t, .inr ⟨rfl, rfl⟩⟩
      · exact .inl h
    · rintro (h | ⟨t', ⟨rfl, _⟩ | ⟨rfl, _⟩⟩)
      · exact .inr h
      · exact .inl (.inl rfl)
      · exact .inl (.inr rfl)

theorem isBolt_iff (s : Str) : toLower s = [98, 111, 108, 116] ↔ IsBolt s := by
  have e1 : txt "bB" = [98, 66] := rfl
  have e2 : txt "oO" = [111, 79] := rfl
  have e3 : txt "lL" = [108, 76] := rfl
  have e4 : txt "tT" = [116, 84] := rfl
  unfold toLower
  match s with
  | [] | [_] | [_, _] | [_, _, _] | _ :: _ :: _ :: _ :: _ :: _ => simp [IsBolt]
  | [b, o, l, t] =>
    have h1 := lower_iff b 98 (by decide)
    have h2 := lower_iff o 111 (by decide)
    have h3 := lower_iff l 108 (by decide)
    have h4 := lower_iff t 116 (by decide)
    simp only [List.map_cons, List.map_nil, List.cons.injEq, and_true, IsBolt, e1, e2, e3, e4, h1, h2, h3, h4, List.mem_cons, List.not_mem_nil, or_false]
    rfl

variable {u : URL} {c c0 : Config}

theorem kTimeout_eq : kTimeout = txt "timeout" := rfl
theorem kTLS_eq : kTLS = txt "tls" := rfl
theorem kCert_eq : kCert = txt "tls_cert_file" := rfl
theorem kKey_eq : kKey = txt "tls_key_file" := rfl
theorem kCA_eq : kCA = txt "tls_ca_cert_file" := rfl
theorem kNoVerify_eq : kNoVerify = txt "tls_no_verify" := rfl

theorem parseURL_ok (h : parseURL c0 u = .ok c) : IsBolt u.scheme ∧ ∃ c1 c2, setLogin c0 u = .ok c1 ∧ setTimeout c1 u = .ok c2 ∧ c = setTLS c2 u := by
  unfold parseURL at h
  split at h
  · cases h
  · next hb =>
    refine ⟨(isBolt_iff _).mp (by simpa using hb), ?_⟩
    cases h1 : setLogin c0 u with
    | error e => rw [h1] at h; cases h
    | ok c1 =>
      simp only [h1] at h
      cases h2 : setTimeout c1 u with
      | error e => rw [h2] at h; cases h
      | ok c2 => rw [h2] at h; cases h; exact ⟨c1, c2, rfl, h2, rfl⟩

/-- C47: which connection strings are accepted: scheme bolt in any case, a user only with a password, a timeout only if it
is an integer. Missing: integers that do not fit in 64 bits are rejected. -/
theorem c47_accepts_partial (u : URL) : (∃ c, parseURL newConfig u = .ok c) ↔
    (IsBolt u.scheme ∧ (∀ n, u.user ≠ some (n, none)) ∧
      (u.query (txt "timeout") = [] ∨ ∃ v, IsInteger (u.query (txt "timeout")) v ∧ IsInt64 v)) := by
  rw [← kTimeout_eq]
  constructor
  · rintro ⟨c, h⟩
    obtain ⟨hb, c1, c2, h1, h2, rfl⟩ := parseURL_ok h
    refine ⟨hb, ?_, ?_⟩
    · intro n hn
      unfold setLogin at h1
      rw [hn] at h1
      cases h1
    · unfold setTimeout at h2
      split at h2
      · next ht => exact .inl ht
      · cases ha : atoi (u.query kTimeout) with
        | some v => exact .inr ⟨v, (atoi_iff _ _).mp ha⟩
        | none => rw [ha] at h2; cases h2
  · rintro ⟨h1, h2, h3⟩
    obtain ⟨c1, hc1⟩ : ∃ c, setLogin newConfig u = .ok c := by
      unfold setLogin
      cases hu : u.user with
      | none => exact ⟨_, rfl⟩
      | some x =>
        obtain ⟨n, p⟩ := x
        cases p with
        | none => exact absurd hu (h2 n)
        | some p => exact ⟨_, rfl⟩
    obtain ⟨c2, hc2⟩ : ∃ c, setTimeout c1 u = .ok c := by
      unfold setTimeout
      rcases h3 with h3 | ⟨v, h3, h4⟩
      · exact ⟨_, if_pos h3⟩
      · split
        · exact ⟨_, rfl⟩
        · rw [(atoi_iff _ _).mpr ⟨h3, h4⟩]; exact ⟨_, rfl⟩
    unfold parseURL
    rw [if_neg (by simpa using (isBolt_iff _).mpr h1), hc1]
    simp only [hc2]
    exact ⟨_, rfl⟩

theorem wrapSigned_id {v : _root_.Int} (h : IsInt64 v) : wrapSigned 8 v = v := by
  have e' : (2 : _root_.Int) ^ 63 = 9223372036854775808 := by decide
  unfold IsInt64 at h
  rw [e'] at h
  unfold wrapSigned
  have e1 : (256 : Nat) ^ 8 = 18446744073709551616 := by decide
  simp only [e1]
  split <;> omega

/-- C47: what an accepted connection string sets. Missing: timeouts of more than 2^63 nanoseconds (see `c47_false`). -/
theorem c47_config_partial (h : parseURL newConfig u = .ok c) :
    (match u.user with
      | none => c.user = [] ∧ c.password = []
      | some (n, p) => c.user = n ∧ some c.password = p) ∧
    (u.query (txt "timeout") = [] → c.timeout = 60 * 10 ^ 9) ∧
    (∀ v, IsInteger (u.query (txt "timeout")) v → IsInt64 (v * 10 ^ 9) → c.timeout = v * 10 ^ 9) ∧
    (c.useTLS = true ↔ SaysYes (u.query (txt "tls"))) ∧
    (c.useTLS = true → c.certFile = u.query (txt "tls_cert_file") ∧ c.keyFile = u.query (txt "tls_key_file") ∧
      c.caCertFile = u.query (txt "tls_ca_cert_file") ∧ (c.tlsNoVerify = true ↔ SaysYes (u.query (txt "tls_no_verify")))) ∧
    (c.useTLS = false → c.certFile = [] ∧ c.keyFile = [] ∧ c.caCertFile = [] ∧ c.tlsNoVerify = false) := by
  obtain ⟨-, c1, c2, h1, h2, rfl⟩ := parseURL_ok h
  rw [← kTimeout_eq, ← kTLS_eq, ← kCert_eq, ← kKey_eq, ← kCA_eq, ← kNoVerify_eq, ← isTrue_iff, ← isTrue_iff]
  have hl : c1.timeout = 60 * 10 ^ 9 ∧ c1.certFile = [] ∧ c1.keyFile = [] ∧ c1.caCertFile = [] ∧ c1.tlsNoVerify = false ∧
      (match u.user with
      | none => c1.user = [] ∧ c1.password = []
      | some (n, p) => c1.user = n ∧ some c1.password = p) := by
    unfold setLogin at h1
    cases hu : u.user with
    | none => rw [hu] at h1; cases h1; exact ⟨rfl, rfl, rfl, rfl, rfl, rfl, rfl⟩
    | some x =>
      obtain ⟨n, p⟩ := x
      cases p with
      | none => rw [hu] at h1; cases h1
      | some p => rw [hu] at h1; cases h1; exact ⟨rfl, rfl, rfl, rfl, rfl, rfl, rfl⟩
  have ht : c2.user = c1.user ∧ c2.password = c1.password ∧ c2.certFile = c1.certFile ∧ c2.keyFile = c1.keyFile ∧ c2.caCertFile = c1.caCertFile ∧
      c2.tlsNoVerify = c1.tlsNoVerify ∧ (u.query kTimeout = [] → c2.timeout = c1.timeout) ∧
      (∀ v, IsInteger (u.query kTimeout) v → IsInt64 (v * 10 ^ 9) → c2.timeout = v * 10 ^ 9) := by
    unfold setTimeout at h2
    split at h2
    · next hq =>
      cases h2
      refine ⟨rfl, rfl, rfl, rfl, rfl, rfl, fun _ => rfl, fun v hv => ?_⟩
      obtain ⟨n, h | ⟨t, h, _⟩ | ⟨t, h, _⟩⟩ := hv
      · exact absurd hq ((decimal_iff _ _).mp h.1).1
      · rw [hq] at h; cases h
      · rw [hq] at h; cases h
    · next hq =>
      cases ha : atoi (u.query kTimeout) with
      | none => rw [ha] at h2; cases h2
      | some v =>
        rw [ha] at h2
        cases h2
        refine ⟨rfl, rfl, rfl, rfl, rfl, rfl, fun h => absurd h hq, fun v' hv hr => ?_⟩
        rw [isInteger_unique hv ((atoi_iff _ _).mp ha).1] at hr ⊢
        exact wrapSigned_id hr
  unfold setTLS
  obtain ⟨t1, t2, t3, t4, t5, t6, t7, t8⟩ := ht
  obtain ⟨l1, l2, l3, l4, l5, l6⟩ := hl
  have lu : (match u.user with
      | none => c2.user = [] ∧ c2.password = []
      | some (n, p) => c2.user = n ∧ some c2.password = p) := by rw [t1, t2]; exact l6
  by_cases hT : isTrue (u.query kTLS) = true
  · rw [if_pos hT]; exact ⟨lu, fun hq => (t7 hq).trans l1, t8, by simp [hT], fun _ => ⟨rfl, rfl, rfl, Iff.rfl⟩, fun h => by cases h⟩
  · rw [if_neg hT]; exact ⟨lu, fun hq => (t7 hq).trans l1, t8, by simp [hT], fun h => (by cases h), fun _ => ⟨t3.trans l2, t4.trans l3, t5.trans l4, t6.trans l5⟩⟩

/-- A URL with these options. -/
def url (scheme : String) (user : Option (Str × Option Str)) (opts : List (Str × Str)) : URL where
  scheme := txt scheme
  user := user
  host := txt "localhost:7687"
  query k := ((opts.find? fun x => x.1 == k).map Prod.snd).getD []

/-- "Bolt://u:p@localhost:7687?timeout=5&tls=True" -/
example : ∃ c, parseURL newConfig (url "Bolt" (some (txt "u", some (txt "p"))) [(txt "timeout", txt "5"), (txt "tls", txt "True")]) = .ok c ∧
    c.user = txt "u" ∧ c.password = txt "p" ∧ c.timeout = 5 * 10 ^ 9 ∧ c.useTLS = true :=
  ⟨_, rfl, rfl, rfl, by decide +kernel, rfl⟩

/-- C47 is false for large timeouts: ten thousand million seconds become a negative duration. -/
theorem c47_false : IsInteger (txt "10000000000") 10000000000 ∧
    ∃ c, parseURL newConfig (url "bolt" none [(txt "timeout", txt "10000000000")]) = .ok c ∧ c.timeout < 0 := by
  constructor
  · refine ((atoi_iff _ _).mp ?_).1
    rfl
  · exact ⟨_, rfl, by decide⟩

/-- C47: TLS is set up as configured: the certificate file needs a key file, verification is switched off only when
asked for, a certificate authority is only trusted when given. -/
theorem c47_tls {readFile : Str → Except GoErr Bytes} {loadPair : Str → Str → Option GoErr} {t : TLS} (h : tlsConfig readFile loadPair c = .ok t) :
    t.insecureSkipVerify = c.tlsNoVerify ∧ (c.certFile ≠ [] → c.keyFile ≠ [] ∧ t.certificate = some (c.certFile, c.keyFile)) ∧
    (c.certFile = [] → t.certificate = none) ∧ (c.caCertFile = [] → t.rootCAs = none) ∧
    (c.caCertFile ≠ [] → ∃ b, readFile c.caCertFile = .ok b ∧ t.rootCAs = some b) := by
  unfold tlsConfig at h
  by_cases hca : c.caCertFile = []
  · simp only [hca, if_true] at h
    by_cases hc : c.certFile = []
    · simp only [hc, if_true] at h
      cases h
      exact ⟨rfl, fun h => absurd hc h, fun _ => rfl, fun _ => rfl, fun h => absurd hca h⟩
    · simp only [if_neg hc] at h
      split at h
      · cases h
      · next hk =>
        cases hp : loadPair c.certFile c.keyFile with
        | some e => rw [hp] at h; cases h
        | none => rw [hp] at h; cases h; exact ⟨rfl, fun _ => ⟨hk, rfl⟩, fun h => absurd h hc, fun _ => rfl, fun h => absurd hca h⟩
  · simp only [if_neg hca] at h
    cases hr : readFile c.caCertFile with
    | error e => rw [hr] at h; cases h
    | ok b =>
      simp only [hr] at h
      by_cases hc : c.certFile = []
      · simp only [hc, if_true] at h
        cases h
        exact ⟨rfl, fun h => absurd hc h, fun _ => rfl, fun h => absurd h hca, fun _ => ⟨b, rfl, rfl⟩⟩
      · simp only [if_neg hc] at h
        split at h
        · cases h
        · next hk =>
          cases hp : loadPair c.certFile c.keyFile with
          | some e => rw [hp] at h; cases h
          | none => rw [hp] at h; cases h; exact ⟨rfl, fun _ => ⟨hk, rfl⟩, fun h => absurd h hc, fun h => absurd h hca, fun _ => ⟨b, rfl, rfl⟩⟩

/-- A certificate with its key. -/
example : tlsConfig (fun _ => .ok []) (fun _ _ => none) { newConfig with certFile := [1], keyFile := [2] } = .ok ⟨none, some ([1], [2]), false⟩ := rfl

end Bolt
