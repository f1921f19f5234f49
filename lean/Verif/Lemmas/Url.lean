import Verif.Model.Url
import Verif.Spec.Url
import Verif.Lemmas.GenName
import Verif.Props.C43
import Verif.Lemmas.PyStr

/-! # Taking URLs apart and putting them together -/

namespace Asn1.Url
open Asn1 Spec Asn1.Spec.Iri

theorem partition_some {x : Char} : ∀ {a b : Str}, x ∉ a → partition x (a ++ x :: b) = some (a, b)
  | [], b, _ => by simp [partition]
  | c :: a, b, h => by
    simp only [List.mem_cons, not_or] at h
    simp only [List.cons_append, partition, if_neg (Ne.symm h.1), partition_some h.2, Option.map_some]

theorem partition_none {x : Char} : ∀ {a : Str}, x ∉ a → partition x a = none
  | [], _ => rfl
  | c :: a, h => by
    simp only [List.mem_cons, not_or] at h
    simp only [partition, if_neg (Ne.symm h.1), partition_none h.2, Option.map_none]

theorem partition_opt {x : Char} {a b : Str} (h : x ∉ a) : (partition x (a ++ optText x b)).getD (a ++ optText x b, []) = (a, b) := by
  unfold optText
  split
  · next hb => rw [List.append_nil, partition_none h, hb]; rfl
  · rw [partition_some h]; rfl

theorem ascii_cases (P : Char → Prop) (h : ∀ n < 128, P (Char.ofNat n)) (c : Char) (hc : c.toNat < 128) : P c := by
  have := h c.toNat hc
  rwa [Char.ofNat_toNat] at this

/-- Characters of a scheme. -/
def SchemeChar (c : Char) : Prop := c.isLower = true ∨ c.isDigit = true ∨ c = '-' ∨ c = '.'

instance (c : Char) : Decidable (SchemeChar c) := by unfold SchemeChar; infer_instance

theorem schemeChar_ascii {c : Char} (h : SchemeChar c) : c.toNat < 128 := by
  refine (Iri.unreserved_ascii ?_).1
  rcases h with h | h | rfl | rfl
  · exact .inl (by simp [Char.isAlphanum, Char.isAlpha, h])
  · exact .inl (by simp [Char.isAlphanum, h])
  · exact .inr (by simp)
  · exact .inr (by simp)

theorem schemeChar_facts {c : Char} (h : SchemeChar c) : schemeChar c = true ∧ c.toLower = c ∧ 32 < c.toNat ∧ c ≠ ':' ∧
    Iri.alwaysSafe (UInt8.ofNat c.toNat) = true := by
  have key := ascii_cases (fun c => SchemeChar c → schemeChar c = true ∧ c.toLower = c ∧ 32 < c.toNat ∧ c ≠ ':' ∧
    Iri.alwaysSafe (UInt8.ofNat c.toNat) = true) (by decide +kernel) c (schemeChar_ascii h)
  exact key h

theorem isLower_alpha {c : Char} (h : c.isLower = true) : c.isAlpha = true := by simp [Char.isAlpha, h]

/-- The scheme of valid parts. -/
theorem Spec.Parts.Valid.chars {p : Parts} (h : p.Valid) : ∃ a r, p.scheme = a :: r ∧ a.isLower = true ∧ ∀ c ∈ p.scheme, SchemeChar c := by
  obtain ⟨a, r, hs, ha, hr⟩ := h.scheme
  refine ⟨a, r, hs, ha, fun c hc => ?_⟩
  rw [hs] at hc
  rcases List.mem_cons.mp hc with rfl | hc
  · exact .inl ha
  · exact hr c hc

theorem quote_scheme {s : Str} (h : ∀ c ∈ s, SchemeChar c) (hne : s ≠ []) : Iri.urlquote s [] = .ok (some (octets s)) := by
  have hq : NoEscape s := by
    rintro ⟨pre, a, b, post, rfl, _⟩
    have := h '%' (by simp)
    revert this; decide
  rw [Iri.urlquote_plain hq hne]
  congr 2
  clear hq hne
  induction s with
  | nil => rfl
  | cons c s ih =>
    have hc := h c (by simp)
    have e : Iri.encodeUtf8 (c :: s) = UInt8.ofNat c.toNat :: Iri.encodeUtf8 s := by
      simp only [Iri.encodeUtf8, List.flatMap_cons, Iri.utf8_ascii (schemeChar_ascii hc)]
      rfl
    rw [e]
    simp only [Iri.quoteBytes, List.flatMap_cons] at ih ⊢
    rw [ih (fun d hd => h d (by simp [hd]))]
    simp only [Iri.quoteByte, (schemeChar_facts hc).2.2.2.2, Bool.true_or, if_true]
    rfl

/-! ### `urlsplit` -/

theorem splitScheme_eq {s : Str} (rest : Str) (h : ∃ a r, s = a :: r ∧ a.isLower = true) (hc : ∀ c ∈ s, SchemeChar c) :
    splitScheme (s ++ ':' :: rest) = (s, rest) := by
  obtain ⟨a, r, rfl, ha⟩ := h
  unfold splitScheme
  rw [partition_some (fun hm => (schemeChar_facts (hc _ hm)).2.2.2.1 rfl)]
  simp only
  rw [if_pos]
  · have : List.map Char.toLower (a :: r) = a :: r := by
      conv_rhs => rw [← List.map_id (a :: r)]
      exact List.map_congr_left (fun c hm => (schemeChar_facts (hc c hm)).2.1)
    rw [this]
  · rw [Bool.and_eq_true, List.all_eq_true]
    exact ⟨isLower_alpha ha, fun c hm => (schemeChar_facts (hc c hm)).1⟩

theorem splitNetloc_eq {n rest : Str} (hn : ∀ c ∈ n, c ≠ '/' ∧ c ≠ '?' ∧ c ≠ '#')
    (hr : rest = [] ∨ ∃ c r, rest = c :: r ∧ (c = '/' ∨ c = '?' ∨ c = '#')) : splitNetloc ('/' :: '/' :: (n ++ rest)) = (n, rest) := by
  have h1 : ∀ c ∈ n, (!['/', '?', '#'].contains c) = true := by
    intro c hc
    obtain ⟨h1, h2, h3⟩ := hn c hc
    simp [h1, h2, h3]
  have h2 : rest.takeWhile (fun c => !['/', '?', '#'].contains c) = [] ∧ rest.dropWhile (fun c => !['/', '?', '#'].contains c) = rest := by
    rcases hr with rfl | ⟨c, r, rfl, hc⟩
    · exact ⟨rfl, rfl⟩
    · rcases hc with rfl | rfl | rfl <;> exact ⟨rfl, rfl⟩
  unfold splitNetloc
  simp only
  rw [List.takeWhile_append_of_pos h1, List.dropWhile_append_of_pos h1, h2.1, h2.2, List.append_nil]

theorem digits_free (n : Nat) (ds : List Char) (h : ∀ d < 10, digitChar d ∉ ds ∧ digitChar d ≠ '\t' ∧ digitChar d ≠ '\r' ∧ digitChar d ≠ '\n') :
    Free ds (pyStrNat n) := by
  intro c hc
  obtain ⟨d, hd, rfl⟩ := mem_pyStrNat n c hc
  exact h d hd

theorem Spec.Free.notMem {ds : List Char} {s : Str} (h : Free ds s) {x : Char} (hx : x ∈ ds) : x ∉ s := fun hm => (h x hm).1 hx

theorem Spec.Free.append {ds : List Char} {s t : Str} (h : Free ds s) (h' : Free ds t) : Free ds (s ++ t) := by
  intro c hc
  rcases List.mem_append.mp hc with hc | hc
  · exact h c hc
  · exact h' c hc

theorem Spec.Free.mono {ds es : List Char} {s : Str} (h : Free ds s) (hs : ∀ c ∈ es, c ∈ ds) : Free es s :=
  fun c hc => ⟨fun he => (h c hc).1 (hs c he), (h c hc).2⟩

theorem free_cons {ds : List Char} {x : Char} {s : Str} (hx : x ∉ ds ∧ x ≠ '\t' ∧ x ≠ '\r' ∧ x ≠ '\n') (h : Free ds s) : Free ds (x :: s) := by
  intro c hc
  rcases List.mem_cons.mp hc with rfl | hc
  · exact hx
  · exact h c hc

theorem free_nil (ds : List Char) : Free ds [] := by intro c hc; cases hc

theorem free_opt {ds : List Char} {x : Char} {s : Str} (hx : x ∉ ds ∧ x ≠ '\t' ∧ x ≠ '\r' ∧ x ≠ '\n') (h : Free ds s) : Free ds (optText x s) := by
  unfold optText
  split
  · exact free_nil ds
  · exact free_cons hx h

theorem port_free (n : Option Nat) : Free ['@', '/', '?', '#', '[', ']'] (portText n) := by
  cases n with
  | none => exact free_nil _
  | some n => exact free_cons (by decide) (digits_free n _ (by decide))

theorem user_free {p : Parts} (h : p.Valid) : Free ['/', '?', '#', '[', ']'] (userText p.user) := by
  have hd : ∀ c ∈ ['/', '?', '#', '[', ']'], c ∈ delims := by decide
  cases hu : p.user with
  | none => exact free_nil _
  | some q =>
    obtain ⟨u, w⟩ := q
    obtain ⟨_, h1, h2⟩ := h.user u w hu
    cases w with
    | none => exact (h1.mono hd).append (free_cons (by decide) (free_nil _))
    | some v =>
      exact ((h1.mono hd).append (free_cons (by decide) ((h2 v rfl).2.mono hd))).append (free_cons (by decide) (free_nil _))

theorem authority_free {p : Parts} (h : p.Valid) : Free ['/', '?', '#', '[', ']'] p.authority :=
  ((user_free h).append (h.host.2.mono (by decide))).append ((port_free p.port).mono (by decide))

theorem authority_ne {p : Parts} (h : p.Valid) : p.authority ≠ [] := by
  unfold Parts.authority
  intro hn
  simp only [List.append_eq_nil_iff] at hn
  exact h.host.1 hn.1.2

theorem checkBrackets_ok (L : Lib) {n : Str} (h : '[' ∉ n) (h' : ']' ∉ n) : checkBrackets L n = .ok () := by
  unfold checkBrackets
  have h1 : n.contains '[' = false := by simpa using h
  have h2 : n.contains ']' = false := by simpa using h'
  rw [h1, h2]
  rfl

/-- The text of valid parts is taken apart into them. -/
theorem urlsplit_text (L : Lib) {p : Parts} (h : p.Valid) (hn : checkNetloc L p.authority = .ok ()) :
    urlsplit L p.text = .ok ⟨p.scheme, p.authority, p.path, p.query, p.fragment⟩ := by
  obtain ⟨a, r, hs, ha, hc⟩ := h.chars
  have haf := authority_free h
  have hfree : Free [] p.text := by
    unfold Parts.text
    refine ((Free.append ?_ (h.path.1.mono (by simp))).append (free_opt (by decide) (h.query.mono (by simp)))).append (free_opt (by decide) h.fragment)
    refine Free.append ?_ ?_
    · intro c hm
      have := (schemeChar_facts (hc c hm)).2.2.1
      refine ⟨by simp, ?_, ?_, ?_⟩ <;> rintro rfl <;> revert this <;> decide
    · exact free_cons (by decide) (free_cons (by decide) (free_cons (by decide) (haf.mono (by simp))))
  have e1 : p.text.dropWhile (fun c => decide (c.toNat ≤ 32)) = p.text := by
    unfold Parts.text
    rw [hs]
    simp only [List.cons_append, List.dropWhile_cons]
    rw [if_neg]
    have := (schemeChar_facts (hc a (by rw [hs]; simp))).2.2.1
    simp only [decide_eq_true_eq]
    omega
  have e2 : p.text.filter (fun c => !['\t', '\r', '\n'].contains c) = p.text := by
    rw [List.filter_eq_self]
    intro c hm
    obtain ⟨_, h1, h2, h3⟩ := hfree c hm
    simp [h1, h2, h3]
  have e3 : p.text = p.scheme ++ ':' :: ('/' :: '/' :: (p.authority ++ (p.path ++ optText '?' p.query ++ optText '#' p.fragment))) := by
    unfold Parts.text
    simp [List.append_assoc]
  have e4 : splitScheme p.text = (p.scheme, '/' :: '/' :: (p.authority ++ (p.path ++ optText '?' p.query ++ optText '#' p.fragment))) := by
    rw [e3]
    exact splitScheme_eq _ ⟨a, r, hs, ha⟩ hc
  have e5 : splitNetloc ('/' :: '/' :: (p.authority ++ (p.path ++ optText '?' p.query ++ optText '#' p.fragment))) =
      (p.authority, p.path ++ optText '?' p.query ++ optText '#' p.fragment) := by
    refine splitNetloc_eq ?_ ?_
    · intro c hm
      have := (haf c hm).1
      simp only [List.mem_cons, not_or] at this
      exact ⟨this.1, this.2.1, this.2.2.1⟩
    · rcases h.path.2 with hp | ⟨r, hp⟩
      · rw [hp, List.nil_append]
        unfold optText
        by_cases hq : p.query = []
        · rw [if_pos hq, List.nil_append]
          by_cases hf : p.fragment = []
          · rw [if_pos hf]; exact .inl rfl
          · rw [if_neg hf]; exact .inr ⟨_, _, rfl, by simp⟩
        · rw [if_neg hq]; exact .inr ⟨_, _, rfl, by simp⟩
      · rw [hp]; exact .inr ⟨_, _, rfl, by simp⟩
  have e6 : (partition '#' (p.path ++ optText '?' p.query ++ optText '#' p.fragment)).getD
      (p.path ++ optText '?' p.query ++ optText '#' p.fragment, []) = (p.path ++ optText '?' p.query, p.fragment) := by
    refine partition_opt ?_
    exact (Free.append (h.path.1.mono (es := ['#']) (by simp)) (free_opt (by decide) h.query)).notMem (by simp)
  have e7 : (partition '?' (p.path ++ optText '?' p.query)).getD (p.path ++ optText '?' p.query, []) = (p.path, p.query) :=
    partition_opt (h.path.1.notMem (by simp))
  unfold urlsplit
  simp only [e1, e2, e4, e5, checkBrackets_ok L (haf.notMem (x := '[') (by simp)) (haf.notMem (x := ']') (by simp)), bind, Except.bind, e6, e7, hn]

/-! ### The authority -/

theorem rsplit_authority {p : Parts} (h : p.Valid) : rsplit '@' p.authority = match p.user with
    | none => none
    | some (u, w) => some (u ++ (match w with
      | none => []
      | some v => ':' :: v), p.host ++ portText p.port) := by
  have hh : '@' ∉ p.host ++ portText p.port :=
    (Free.append (h.host.2.mono (es := ['@']) (by decide)) ((port_free p.port).mono (by simp))).notMem (by simp)
  unfold Parts.authority
  cases hu : p.user with
  | none =>
    simp only [userText, List.nil_append]
    exact GenName.rsplit_none.mpr hh
  | some q =>
    obtain ⟨u, w⟩ := q
    simp only
    refine GenName.rsplit_some.mpr ⟨?_, hh⟩
    cases w <;> simp [userText]

theorem userinfo_authority {p : Parts} (h : p.Valid) : userinfo p.authority = (p.user.map Prod.fst, p.user.bind Prod.snd) := by
  unfold userinfo
  rw [rsplit_authority h]
  cases hu : p.user with
  | none => rfl
  | some q =>
    obtain ⟨u, w⟩ := q
    obtain ⟨_, h1, h2⟩ := h.user u w hu
    have hc : ':' ∉ u := h1.notMem (by decide)
    cases w with
    | none =>
      simp only [List.append_nil, partition_none hc]
      rfl
    | some v =>
      simp only [partition_some hc]
      rfl

theorem hostinfo_authority {p : Parts} (h : p.Valid) : hostinfo p.authority = (p.host, match p.port with
    | none => []
    | some n => pyStrNat n) := by
  have hb : '[' ∉ p.host ++ portText p.port :=
    (Free.append (h.host.2.mono (es := ['[']) (by decide)) ((port_free p.port).mono (by simp))).notMem (by simp)
  have hc : ':' ∉ p.host := h.host.2.notMem (by decide)
  have hi : hostPart p.authority = p.host ++ portText p.port := by
    unfold hostPart
    rw [rsplit_authority h]
    cases hu : p.user with
    | none => simp only [Parts.authority, hu, userText, List.nil_append]
    | some q => rfl
  unfold hostinfo
  simp only [hi, partition_none hb]
  cases p.port with
  | none => simp only [portText, List.append_nil, partition_none hc]; rfl
  | some n => simp only [portText, partition_some hc]; rfl

theorem hostname_authority (L : Lib) {p : Parts} (h : p.Valid) : hostname L p.authority = some (lower L p.host) := by
  unfold hostname
  rw [hostinfo_authority h]
  simp only [if_neg h.host.1, partition_none (h.host.2.notMem (x := '%') (by decide))]

theorem decimal_foldl (s : Str) (n : Nat) : s.foldl (fun n c => 10 * n + (c.toNat - 48)) n = n * 10 ^ s.length + decimal s := by
  induction s generalizing n with
  | nil => simp [decimal]
  | cons c s ih =>
    unfold decimal
    simp only [List.foldl_cons, List.length_cons]
    rw [ih, ih (10 * 0 + _)]
    ring

theorem decimal_append (s t : Str) : decimal (s ++ t) = decimal s * 10 ^ t.length + decimal t := by
  rw [decimal, List.foldl_append, decimal_foldl]
  rfl

theorem decimal_pyStrNat (n : Nat) : decimal (pyStrNat n) = n := by
  induction n using Nat.strongRecOn with
  | ind n ih =>
    rw [pyStrNat]
    split
    · next h =>
      have : ∀ d < 10, decimal [digitChar d] = d := by decide
      exact this n h
    · next h =>
      rw [decimal_append, ih (n / 10) (by omega)]
      have : ∀ d < 10, decimal [digitChar d] = d := by decide
      rw [this (n % 10) (by omega)]
      simp only [List.length_singleton, Nat.pow_one]
      omega

theorem port_authority {p : Parts} (h : p.Valid) : port p.authority = .ok p.port := by
  unfold port
  rw [hostinfo_authority h]
  cases hp : p.port with
  | none => rfl
  | some n =>
    have hd : (pyStrNat n).all (fun c => c.isDigit) = true := by
      rw [List.all_eq_true]
      intro c hc
      obtain ⟨d, hd, rfl⟩ := mem_pyStrNat n c hc
      have : ∀ d < 10, (digitChar d).isDigit = true := by decide
      exact this d hd
    simp only [if_neg (pyStrNat_ne_nil n), hd, if_true, decimal_pyStrNat, if_pos (h.port n hp)]

/-- `urlunsplit` of valid parts gives the text. -/
theorem urlunsplit_text {p : Parts} (h : p.Valid) : urlunsplit ⟨p.scheme, p.authority, p.path, p.query, p.fragment⟩ = p.text := by
  obtain ⟨a, r, hs, _⟩ := h.scheme
  have hsn : p.scheme ≠ [] := by rw [hs]; simp
  have hp : ¬ (p.path ≠ [] ∧ p.path.take 1 ≠ ['/']) := by
    rintro ⟨h1, h2⟩
    rcases h.path.2 with hp | ⟨r, hp⟩
    · exact h1 hp
    · rw [hp] at h2; exact h2 rfl
  unfold urlunsplit
  simp only [if_pos (Or.inl (authority_ne h)), if_neg hp, if_pos hsn, Parts.text, optText]
  by_cases hq : p.query = [] <;> by_cases hf : p.fragment = [] <;> simp [hq, hf]

/-! ### Quoted components -/

theorem quote_means {safe s : Str} {d : List (UInt8 × Bool)} (hc : Props.Component safe) (h : Means safe s d) (hne : s ≠ []) :
    ∃ out, Iri.urlquote s safe = .ok (some out) ∧ Denotes safe out d := by
  cases h with
  | none => exact absurd rfl hne
  | plain hs => exact Props.C43_plain_meaning hc hs hne
  | escaped hs h1 h2 => exact Props.C43_meaning_partial hc hs hne h1 h2

theorem means_nil {safe : Str} {d : List (UInt8 × Bool)} (h : Means safe [] d) : d = [] := by
  generalize hs : ([] : Str) = s at h
  cases h with
  | none => rfl
  | plain _ => subst hs; rfl
  | escaped he _ _ =>
    subst hs
    rename_i ps _ _
    cases ps with
    | nil => rfl
    | cons p ps =>
      have := he.1
      cases p <;> simp [Piece.text] at this

/-- The bytes of a component that may be absent. -/
def optBytes (s : Str) : Option Bytes := if s = [] then none else some (octets s)

theorem denotes_ne {safe : Str} {out : Bytes} {d : List (UInt8 × Bool)} (h : Denotes safe out d) (hd : d ≠ []) : out ≠ [] := by
  cases h <;> simp_all

theorem quote_ne {safe s : Str} {out : Bytes} (h : Iri.urlquote s safe = .ok (some out)) : s ≠ [] := by
  rintro rfl
  cases h

theorem marks_ne {safe s : Str} {d : List (UInt8 × Bool)} (h : Means safe s d) (hne : s ≠ []) : d ≠ [] := by
  cases h with
  | none => exact absurd rfl hne
  | plain hs =>
    cases s with
    | nil => exact absurd rfl hne
    | cons c s =>
      simp only [List.map_cons, List.flatMap_cons, Piece.marked]
      intro hn
      simp only [List.append_eq_nil_iff, List.map_eq_nil_iff] at hn
      exact Iri.utf8_ne_nil c (by rw [Iri.utf8_eq]; exact hn.1)
  | escaped he _ _ =>
    rename_i ps _ _
    cases ps with
    | nil => exact absurd he.1 hne
    | cons p ps =>
      cases p with
      | esc a b => simp [Piece.marked]
      | char c =>
        simp only [List.flatMap_cons, Piece.marked]
        intro hn
        simp only [List.append_eq_nil_iff, List.map_eq_nil_iff] at hn
        exact Iri.utf8_ne_nil c (by rw [Iri.utf8_eq]; exact hn.1)

/-- Quoting a component: the text `t` of the result. -/
theorem quote_component {safe s : Str} {d : List (UInt8 × Bool)} (hc : Props.Component safe) (h : Means safe s d) :
    ∃ t, Iri.urlquote s safe = .ok (optBytes t) ∧ Denotes safe (octets t) d ∧ (∀ c ∈ t, c.toNat < 128) ∧ (t = [] ↔ s = []) := by
  by_cases hs : s = []
  · subst hs
    rw [means_nil h]
    exact ⟨[], rfl, .nil, by simp, by simp⟩
  · obtain ⟨out, h1, h2⟩ := quote_means hc h hs
    have ha := Iri.Denotes.ascii hc.ok h2
    have ho := GenName.octets_text ha
    have hne : text out ≠ [] := by
      intro hn
      rw [hn] at ho
      exact denotes_ne h2 (marks_ne h hs) ho.symm
    refine ⟨text out, ?_, by rw [ho]; exact h2, ?_, by simp [hne, hs]⟩
    · rw [h1, optBytes, if_neg hne, ho]
    · intro c hc
      obtain ⟨x, hx, rfl⟩ := List.mem_map.mp hc
      rw [GenName.char_octet (ha x hx)]
      exact ha x hx

theorem quoted_chars {safe : Str} (hs : Iri.SafeSet safe) {out : Bytes} {d : List (UInt8 × Bool)} (h : Denotes safe out d) :
    ∀ b ∈ out, ∃ c, b = asc c ∧ c.toNat < 128 ∧ (unreserved c ∨ c ∈ safe ∨ c = '%' ∨ isHex c) := by
  induction h with
  | nil => intro b hb; cases hb
  | plain hc _ ih =>
    intro b hb
    rcases List.mem_cons.mp hb with rfl | hb
    · refine ⟨_, rfl, ?_, ?_⟩
      · rcases hc with hc | hc
        · exact (Iri.unreserved_ascii hc).1
        · exact hs.ascii _ hc
      · rcases hc with hc | hc
        · exact .inl hc
        · exact .inr (.inl hc)
    · exact ih b hb
  | esc ha hb' _ ih =>
    intro b hb
    simp only [List.mem_cons] at hb
    rcases hb with rfl | rfl | rfl | hb
    · exact ⟨_, rfl, by decide, .inr (.inr (.inl rfl))⟩
    · exact ⟨_, rfl, (Iri.hexVal_isHex ha).2.2.1, .inr (.inr (.inr ha))⟩
    · exact ⟨_, rfl, (Iri.hexVal_isHex hb').2.2.1, .inr (.inr (.inr hb'))⟩
    · exact ih b hb

/-- A quoted component has no other delimiters than those of `safe`. -/
theorem quoted_free {safe ds : List Char} (hs : Iri.SafeSet safe) (hsafe : ∀ c ∈ safe, c ∉ ds ∧ c ≠ '\t' ∧ c ≠ '\r' ∧ c ≠ '\n')
    (hds : ∀ n < 128, unreserved (Char.ofNat n) ∨ Char.ofNat n = '%' ∨ isHex (Char.ofNat n) →
      Char.ofNat n ∉ ds ∧ Char.ofNat n ≠ '\t' ∧ Char.ofNat n ≠ '\r' ∧ Char.ofNat n ≠ '\n')
    {t : Str} {d : List (UInt8 × Bool)} (ht : ∀ c ∈ t, c.toNat < 128) (h : Denotes safe (octets t) d) : Free ds t := by
  intro c hc
  obtain ⟨e, he, hel, hk⟩ := quoted_chars hs h (UInt8.ofNat c.toNat) (List.mem_map_of_mem hc)
  have : c = e := GenName.octet_inj (ht c hc) hel he
  subst this
  rcases hk with hk | hk | hk
  · have := hds c.toNat hel
    rw [Char.ofNat_toNat] at this
    exact this (.inl hk)
  · exact hsafe c hk
  · have := hds c.toNat hel
    rw [Char.ofNat_toNat] at this
    exact this (.inr hk)

/-- A quoted path begins with `/` as the path does. -/
theorem quoted_slash {r t : Str} {d : List (UInt8 × Bool)} (hm : Means Iri.safePath ('/' :: r) d) (h : Denotes Iri.safePath (octets t) d)
    (ht : ∀ c ∈ t, c.toNat < 128) : ∃ r', t = '/' :: r' := by
  have hd : ∃ e, d = (asc '/', true) :: e := by
    generalize hs : '/' :: r = s at hm
    cases hm with
    | none => cases hs
    | plain _ => subst hs; exact ⟨_, rfl⟩
    | escaped he _ _ =>
      subst hs
      rename_i ps _ _
      cases ps with
      | nil => exact absurd he.1 (by simp)
      | cons p ps =>
        have := he.1
        cases p with
        | esc a b => simp [Piece.text] at this
        | char c =>
          simp only [List.flatMap_cons, Piece.text, List.cons_append, List.cons.injEq] at this
          rw [← this.1]
          exact ⟨_, rfl⟩
  obtain ⟨e, rfl⟩ := hd
  cases t with
  | nil => cases h
  | cons c t =>
    refine ⟨t, ?_⟩
    congr 1
    generalize ho : octets (c :: t) = out at h
    generalize hm : (asc '/', true) :: e = m at h
    cases h with
    | nil => cases hm
    | plain hc _ =>
      simp only [octets, List.map_cons, List.cons.injEq, Prod.mk.injEq] at ho hm
      refine GenName.octet_inj (ht c (by simp)) (by decide) ?_
      rw [ho.1, ← hm.1.1]
      rfl
    | esc _ _ _ => simp at hm

/-! ### `iri_to_uri` -/

/-- User name and password before and after quoting. -/
inductive QuotedUser : Option (Str × Option Str) → Option (Str × Option Str) → Prop
  | none : QuotedUser none none
  | name {u u' : Str} : Iri.urlquote u Iri.safeUser = .ok (some (octets u')) → QuotedUser (some (u, none)) (some (u', none))
  | both {u u' w w' : Str} : Iri.urlquote u Iri.safeUser = .ok (some (octets u')) → Iri.urlquote w Iri.safeUser = .ok (some (octets w')) →
      w' ≠ [] → QuotedUser (some (u, some w)) (some (u', some w'))

/-- The parts before and after quoting. -/
structure Quoted (L : Lib) (p q : Parts) : Prop where
  scheme : q.scheme = p.scheme
  user : QuotedUser p.user q.user
  host : idnaEncode L (lower L p.host) = .ok (octets q.host)
  port : q.port = p.port
  path : Iri.urlquote p.path Iri.safePath = .ok (optBytes q.path)
  query : Iri.urlquote p.query Iri.safeQuery = .ok (optBytes q.query)
  fragment : Iri.urlquote p.fragment Iri.safeQuery = .ok (optBytes q.fragment)

/-- All parts are ASCII text. -/
structure AsciiParts (q : Parts) : Prop where
  user : ∀ c ∈ userText q.user, c.toNat < 128
  host : ∀ c ∈ q.host, c.toNat < 128
  path : ∀ c ∈ q.path, c.toNat < 128
  query : ∀ c ∈ q.query, c.toNat < 128
  fragment : ∀ c ∈ q.fragment, c.toNat < 128

theorem normal_valid {p : Parts} (h : p.Valid) : p.normal.Valid := by
  refine ⟨h.scheme, h.user, h.host, ?_, ?_, h.query, h.fragment⟩
  · intro n hn
    simp only [Parts.normal] at hn
    split at hn
    · cases hn
    · exact h.port n hn
  · simp only [Parts.normal]
    split
    · exact ⟨free_nil _, .inl rfl⟩
    · exact h.path

theorem normal_ascii {p : Parts} (h : AsciiParts p) : AsciiParts p.normal := by
  refine ⟨h.user, h.host, ?_, h.query, h.fragment⟩
  simp only [Parts.normal]
  split
  · simp
  · exact h.path

theorem asciiText_octets {s : Str} (h : ∀ c ∈ s, c.toNat < 128) : asciiText (some (octets s)) = .ok s := by
  unfold asciiText
  rw [Option.getD_some, if_pos, GenName.text_octets h]
  simpa [List.all_eq_true] using GenName.octets_ascii h

theorem asciiText_opt {s : Str} (h : ∀ c ∈ s, c.toNat < 128) : asciiText (optBytes s) = .ok s := by
  unfold optBytes
  split
  · next hs => rw [hs]; rfl
  · exact asciiText_octets h

theorem pyStrNat_lt (n : Nat) : ∀ c ∈ pyStrNat n, c.toNat < 128 := by
  intro c hc
  obtain ⟨d, hd, rfl⟩ := mem_pyStrNat n c hc
  exact (by decide : ∀ d < 10, (digitChar d).toNat < 128) d hd

theorem portText_ascii (n : Option Nat) : ∀ c ∈ portText n, c.toNat < 128 := by
  cases n with
  | none => intro c hc; cases hc
  | some n =>
    intro c hc
    rcases List.mem_cons.mp hc with rfl | hc
    · decide
    · exact pyStrNat_lt n c hc

theorem authority_ascii {q : Parts} (h : AsciiParts q) : ∀ c ∈ q.authority, c.toNat < 128 := by
  intro c hc
  simp only [Parts.authority, List.mem_append] at hc
  rcases hc with (hc | hc) | hc
  · exact h.user c hc
  · exact h.host c hc
  · exact portText_ascii _ c hc

theorem scheme_ascii {q : Parts} (h : q.Valid) : ∀ c ∈ q.scheme, c.toNat < 128 := by
  obtain ⟨_, _, _, _, hc⟩ := h.chars
  exact fun c h => schemeChar_ascii (hc c h)

theorem opt_ascii {d : Char} {s : Str} (hd : d.toNat < 128) (h : ∀ c ∈ s, c.toNat < 128) : ∀ c ∈ optText d s, c.toNat < 128 := by
  unfold optText
  split
  · simp
  · intro c hc
    rcases List.mem_cons.mp hc with rfl | hc
    · exact hd
    · exact h c hc

theorem parts_ascii {q : Parts} (h : q.Valid) (ha : AsciiParts q) : ∀ c ∈ q.text, c.toNat < 128 := by
  intro c hc
  simp only [Parts.text, List.mem_append, List.mem_cons] at hc
  rcases hc with (((hc | rfl | rfl | rfl | hc) | hc) | hc) | hc
  · exact scheme_ascii h c hc
  · decide
  · decide
  · decide
  · exact authority_ascii ha c hc
  · exact ha.path c hc
  · exact opt_ascii (by decide) ha.query c hc
  · exact opt_ascii (by decide) ha.fragment c hc

theorem octets_inj {s t : Str} (hs : ∀ c ∈ s, c.toNat < 128) (ht : ∀ c ∈ t, c.toNat < 128) (h : octets s = octets t) : s = t := by
  rw [← GenName.text_octets hs, ← GenName.text_octets ht, h]

theorem octets_append (s t : Str) : octets (s ++ t) = octets s ++ octets t := by simp [octets]

/-- `iri_to_uri` of parts that can be quoted. -/
theorem iriToUri_quoted (L : Lib) {p q : Parts} (normalize : Bool) (hp : p.Valid) (hn : checkNetloc L p.authority = .ok ()) (hq : q.Valid)
    (ha : AsciiParts q) (h : Quoted L p q) : iriToUri L p.text normalize = .ok (octets (if normalize then q.normal else q).text) := by
  obtain ⟨a, r, hs, _, hc⟩ := hp.chars
  have hpath := h.path
  have huser : ∃ un pw, quoteOpt (p.user.map Prod.fst) Iri.safeUser = .ok un ∧ quoteOpt (p.user.bind Prod.snd) Iri.safeUser = .ok pw ∧
      userBytes un pw = octets (userText q.user) := by
    have hu := h.user
    generalize p.user = pu at hu
    generalize q.user = qu at hu
    cases hu with
    | none => exact ⟨none, none, rfl, rfl, rfl⟩
    | name h1 => exact ⟨_, none, h1, rfl, by simp [userBytes, userText, octets]⟩
    | both h1 h2 hne => exact ⟨_, _, h1, h2, by simp [userBytes, userText, octets, hne]⟩
  obtain ⟨un, pw, hu1, hu2, hu3⟩ := huser
  unfold iriToUri
  rw [urlsplit_text L hp hn]
  simp only [bind, Except.bind, quote_scheme hc (by rw [hs]; simp), hostname_authority L hp, h.host, Except.map, userinfo_authority hp, hu1, hu2,
    port_authority hp, h.path, h.query, h.fragment, hu3, Option.getD_some]
  have hport : portBytes (some (octets p.scheme)) p.port normalize = octets (portText (if normalize then q.normal else q).port) := by
    have h1 : some (octets p.scheme) = some (octets "http".toList) ↔ q.scheme = "http".toList := by
      rw [h.scheme, Option.some.injEq]
      exact ⟨octets_inj (scheme_ascii hp) (by decide), fun h => by rw [h]⟩
    have h2 : some (octets p.scheme) = some (octets "https".toList) ↔ q.scheme = "https".toList := by
      rw [h.scheme, Option.some.injEq]
      exact ⟨octets_inj (scheme_ascii hp) (by decide), fun h => by rw [h]⟩
    simp only [portBytes, h1, h2, ← h.port]
    cases normalize with
    | false => cases hpo : q.port <;> simp [hpo, portText, octets]
    | true =>
      simp only [Parts.normal, if_true]
      cases q.port with
      | none => simp [portText, octets]
      | some n =>
        by_cases g : q.scheme = "http".toList ∧ n = 80 ∨ q.scheme = "https".toList ∧ n = 443
        · have g' : q.scheme = "http".toList ∧ some n = some 80 ∨ q.scheme = "https".toList ∧ some n = some 443 := by simpa using g
          rw [if_pos g']
          exact if_neg (by tauto)
        · have g' : ¬ (q.scheme = "http".toList ∧ some n = some 80 ∨ q.scheme = "https".toList ∧ some n = some 443) := by simpa using g
          rw [if_neg g']
          exact if_pos (by tauto)
  have hpath : (if normalize = true ∧ optBytes q.query = none ∧ optBytes q.fragment = none ∧ optBytes q.path = some [0x2f] then none
      else optBytes q.path) = optBytes (if normalize then q.normal else q).path := by
    have e : ∀ s, optBytes s = none ↔ s = [] := by intro s; unfold optBytes; split <;> simp_all
    have e' : optBytes q.path = some [0x2f] ↔ q.path = ['/'] := by
      unfold optBytes
      split
      · next h => simp [h]
      · rw [Option.some.injEq]
        exact ⟨fun h => octets_inj ha.path (by decide) h, fun h => by rw [h]; rfl⟩
    simp only [e, e']
    cases normalize with
    | false => simp
    | true =>
      simp only [true_and, if_true, Parts.normal]
      by_cases g : q.path = ['/'] ∧ q.query = [] ∧ q.fragment = []
      · rw [if_pos g, if_pos (by tauto)]; rfl
      · rw [if_neg g, if_neg (by tauto)]
  have hnet : octets (userText q.user) ++ octets q.host ++ octets (portText (if normalize then q.normal else q).port) =
      octets (if normalize then q.normal else q).authority := by
    cases normalize <;> simp [Parts.authority, octets_append, Parts.normal]
  have hq' : (if normalize then q.normal else q).Valid := by cases normalize <;> simp [hq, normal_valid]
  have ha' : AsciiParts (if normalize then q.normal else q) := by cases normalize <;> simp [ha, normal_ascii]
  rw [hport, hpath, hnet, asciiText_octets (authority_ascii ha'), asciiText_octets (scheme_ascii hp), asciiText_opt ha'.path,
    asciiText_opt ha.query, asciiText_opt ha.fragment]
  simp only
  rw [← urlunsplit_text hq']
  cases normalize <;> simp [Parts.normal, h.scheme]

/-! ### `uri_to_iri` -/

/-- User name and password before and after unquoting. -/
inductive UnquotedUser : Option (Str × Option Str) → Option (Str × Option Str) → Prop
  | none : UnquotedUser none none
  | name {u u' : Str} : Iri.unquoteUser (octets u') = .ok u → UnquotedUser (some (u', none)) (some (u, none))
  | both {u u' w w' : Str} : Iri.unquoteUser (octets u') = .ok u → Iri.unquoteUser (octets w') = .ok w → w ≠ [] →
      UnquotedUser (some (u', some w')) (some (u, some w))

theorem checkNetloc_ascii (L : Lib) {n : Str} (h : ∀ c ∈ n, c.toNat < 128) : checkNetloc L n = .ok () := by
  unfold checkNetloc
  rw [if_pos]
  simp only [Bool.or_eq_true, decide_eq_true_eq]
  exact .inr (GenName.isAscii_iff.mpr h)

/-- `uri_to_iri` of parts that can be unquoted. -/
theorem uriToIri_unquoted (L : Lib) {p q : Parts} (hp : p.Valid) (hq : q.Valid) (ha : AsciiParts q) (hs : p.scheme = q.scheme)
    (hu : UnquotedUser q.user p.user) (hh : idnaDecode L (octets (lower L q.host)) = .ok p.host) (hpo : p.port = q.port)
    (h1 : Iri.unquotePath (octets q.path) = .ok p.path) (h2 : Iri.unquoteQuery (octets q.query) = .ok p.query)
    (h3 : Iri.unquoteFragment (octets q.fragment) = .ok p.fragment) : uriToIri L (octets q.text) = .ok p.text := by
  unfold uriToIri
  rw [asciiText_octets (parts_ascii hq ha)]
  simp only [bind, Except.bind]
  rw [urlsplit_text L hq (checkNetloc_ascii L (authority_ascii ha))]
  simp only [userinfo_authority hq, hostname_authority L hq, hh, port_authority hq, h1, h2, h3]
  rw [← urlunsplit_text hp]
  have hport : portString q.port = portText p.port := by rw [hpo]; cases q.port <;> rfl
  generalize hqu : q.user = qu at hu
  generalize hpu : p.user = pu at hu
  have hau : p.authority = userText pu ++ p.host ++ portText p.port := by rw [Parts.authority, hpu]
  cases hu with
  | none => simp [hau, hport, userString, userText, hs]
  | name g => simp [hau, hport, userString, userText, hs, g, Except.map]
  | both g g' hne => simp [hau, hport, userString, userText, hs, g, g', hne, Except.map]

/-! ### The parts of the URI -/

theorem component_user : Props.Component Iri.safeUser := .inl rfl
theorem component_path : Props.Component Iri.safePath := .inr (.inl rfl)
theorem component_query : Props.Component Iri.safeQuery := .inr (.inr rfl)

theorem quoted_user {u : Str} {d : List (UInt8 × Bool)} (h : Means Iri.safeUser u d) (hne : u ≠ []) :
    ∃ u', Iri.urlquote u Iri.safeUser = .ok (some (octets u')) ∧ Denotes Iri.safeUser (octets u') d ∧ u' ≠ [] ∧ Free delims u' ∧
      ∀ c ∈ u', c.toNat < 128 := by
  obtain ⟨t, h1, h2, h3, h4⟩ := quote_component component_user h
  have ht : t ≠ [] := fun ht => hne (h4.mp ht)
  rw [optBytes, if_neg ht] at h1
  exact ⟨t, h1, h2, ht, quoted_free component_user.ok (by decide) (by decide +kernel) h3 h2, h3⟩

/-- Parts whose components have a meaning can be quoted, and the quoted components have the same meaning. -/
theorem quoted_exists (L : Lib) {p : Parts} {h' : Str} (hv : p.Valid)
    (hu : ∀ u w, p.user = some (u, w) → (∃ d, Means Iri.safeUser u d) ∧ ∀ v, w = some v → ∃ d, Means Iri.safeUser v d)
    (hp : ∃ d, Means Iri.safePath p.path d) (hq : ∃ d, Means Iri.safeQuery p.query d) (hf : ∃ d, Means Iri.safeQuery p.fragment d)
    (hh : idnaEncode L (lower L p.host) = .ok (octets h')) (ha : ∀ c ∈ h', c.toNat < 128) (hne : h' ≠ []) (hfree : Free ('%' :: delims) h') :
    ∃ q : Parts, q.Valid ∧ AsciiParts q ∧ Quoted L p q ∧ q.host = h' ∧ SameUser Iri.safeUser p.user q.user ∧
      SameMeaning Iri.safePath p.path q.path ∧ SameMeaning Iri.safeQuery p.query q.query ∧ SameMeaning Iri.safeQuery p.fragment q.fragment := by
  obtain ⟨dp, hp⟩ := hp
  obtain ⟨dq, hq⟩ := hq
  obtain ⟨df, hf⟩ := hf
  obtain ⟨tp, p1, p2, p3, p4⟩ := quote_component component_path hp
  obtain ⟨tq, q1, q2, q3, q4⟩ := quote_component component_query hq
  obtain ⟨tf, f1, f2, f3, f4⟩ := quote_component component_query hf
  have huser : ∃ qu, QuotedUser p.user qu ∧ SameUser Iri.safeUser p.user qu ∧ (∀ c ∈ userText qu, c.toNat < 128) ∧
      ∀ u w, qu = some (u, w) → u ≠ [] ∧ Free delims u ∧ ∀ v, w = some v → v ≠ [] ∧ Free delims v := by
    rcases hpu : p.user with _ | ⟨u, w⟩
    · exact ⟨none, .none, .none, by simp [userText], by simp⟩
    · obtain ⟨⟨d, hd⟩, hw⟩ := hu u w hpu
      obtain ⟨une, _, hw'⟩ := hv.user u w hpu
      obtain ⟨u', a1, a2, a3, a4, a5⟩ := quoted_user hd une
      rcases w with _ | v
      · refine ⟨some (u', none), .name a1, .name ⟨d, hd, a2⟩, ?_, ?_⟩
        · intro c hc
          simp only [userText, List.mem_append, List.mem_singleton] at hc
          rcases hc with hc | rfl
          · exact a5 c hc
          · decide
        · rintro _ _ ⟨⟩
          exact ⟨a3, a4, by simp⟩
      · obtain ⟨e, he⟩ := hw v rfl
        obtain ⟨v', b1, b2, b3, b4, b5⟩ := quoted_user he (hw' v rfl).1
        refine ⟨some (u', some v'), .both a1 b1 b3, .both ⟨d, hd, a2⟩ ⟨e, he, b2⟩, ?_, ?_⟩
        · intro c hc
          simp only [userText, List.mem_append, List.mem_cons, List.not_mem_nil, or_false] at hc
          rcases hc with (hc | rfl | hc) | rfl
          · exact a5 c hc
          · decide
          · exact b5 c hc
          · decide
        · rintro _ _ ⟨⟩
          exact ⟨a3, a4, by rintro _ ⟨⟩; exact ⟨b3, b4⟩⟩
  obtain ⟨qu, u1, u2, u3, u4⟩ := huser
  refine ⟨⟨p.scheme, qu, h', p.port, tp, tq, tf⟩, ⟨hv.scheme, u4, ⟨hne, hfree⟩, hv.port, ⟨?_, ?_⟩, ?_, ?_⟩, ⟨u3, ha, p3, q3, f3⟩,
    ⟨rfl, u1, hh, rfl, p1, q1, f1⟩, rfl, u2, ⟨dp, hp, p2⟩, ⟨dq, hq, q2⟩, ⟨df, hf, f2⟩⟩
  · exact quoted_free component_path.ok (by decide) (by decide +kernel) p3 p2
  · rcases hv.path.2 with he | ⟨r, he⟩
    · exact .inl (p4.mpr he)
    · rw [he] at hp
      exact .inr (quoted_slash hp p2 p3)
  · exact quoted_free component_query.ok (by decide) (by decide +kernel) q3 q2
  · exact quoted_free component_query.ok (by decide) (by decide +kernel) f3 f2

/-! ### Equal texts -/

/-- Different parts have different texts. -/
theorem text_inj {p q : Parts} (hp : p.Valid) (hq : q.Valid) (h : p.text = q.text) : p = q := by
  let L : Lib := ⟨fun _ => .ok [], fun _ => .ok [], _root_.id, _root_.id, fun _ => true⟩
  have hL : ∀ n, checkNetloc L n = .ok () := by
    intro n
    unfold checkNetloc
    split
    · rfl
    · exact if_pos rfl
  have h1 := urlsplit_text L hp (hL _)
  rw [h, urlsplit_text L hq (hL _)] at h1
  injection h1 with h1
  injection h1 with e1 e2 e3 e4 e5
  have hu := userinfo_authority hp
  have hh := hostinfo_authority hp
  have hpo := port_authority hp
  rw [← e2, userinfo_authority hq] at hu
  rw [← e2, hostinfo_authority hq] at hh
  rw [← e2, port_authority hq] at hpo
  injection hu with u1 u2
  injection hh with hh _
  injection hpo with hpo
  have huser : q.user = p.user := by
    rcases hqu : q.user with _ | ⟨a, b⟩ <;> rcases hpu : p.user with _ | ⟨c, d⟩ <;> simp_all
  cases p
  cases q
  simp_all

/-! ### Without host -/

theorem Spec.Opaque.Valid.chars {p : Opaque} (h : p.Valid) : ∃ a r, p.scheme = a :: r ∧ a.isLower = true ∧ ∀ c ∈ p.scheme, SchemeChar c := by
  let q : Parts := ⟨p.scheme, none, ['a'], none, [], [], []⟩
  have hq : q.Valid := ⟨h.scheme, by simp [q], ⟨by simp [q], by intro c hc; simp only [q, List.mem_singleton] at hc; subst hc; decide⟩, by simp [q],
    ⟨free_nil _, .inl rfl⟩, free_nil _, free_nil _⟩
  exact hq.chars

theorem urlsplit_opaque (L : Lib) {p : Opaque} (h : p.Valid) : urlsplit L p.text = .ok ⟨p.scheme, [], p.path, p.query, p.fragment⟩ := by
  obtain ⟨a, r, hs, ha, hc⟩ := h.chars
  have hfree : Free [] p.text := by
    unfold Opaque.text
    refine ((Free.append ?_ ?_).append (free_opt (by decide) (h.query.mono (by simp)))).append (free_opt (by decide) h.fragment)
    · intro c hm
      have := (schemeChar_facts (hc c hm)).2.2.1
      refine ⟨by simp, ?_, ?_, ?_⟩ <;> rintro rfl <;> revert this <;> decide
    · exact free_cons (by decide) (h.path.1.mono (by simp))
  have e1 : p.text.dropWhile (fun c => decide (c.toNat ≤ 32)) = p.text := by
    unfold Opaque.text
    rw [hs]
    simp only [List.cons_append, List.dropWhile_cons]
    rw [if_neg]
    have := (schemeChar_facts (hc a (by rw [hs]; simp))).2.2.1
    simp only [decide_eq_true_eq]
    omega
  have e2 : p.text.filter (fun c => !['\t', '\r', '\n'].contains c) = p.text := by
    rw [List.filter_eq_self]
    intro c hm
    obtain ⟨_, h1, h2, h3⟩ := hfree c hm
    simp [h1, h2, h3]
  have e3 : p.text = p.scheme ++ ':' :: (p.path ++ optText '?' p.query ++ optText '#' p.fragment) := by
    unfold Opaque.text
    simp [List.append_assoc]
  have e4 : splitScheme p.text = (p.scheme, p.path ++ optText '?' p.query ++ optText '#' p.fragment) := by
    rw [e3]
    exact splitScheme_eq _ ⟨a, r, hs, ha⟩ hc
  have e5 : splitNetloc (p.path ++ optText '?' p.query ++ optText '#' p.fragment) = ([], p.path ++ optText '?' p.query ++ optText '#' p.fragment) := by
    have hx : ∀ d : Char, d ≠ '/' → ∀ s : Str, (optText d s).head? ≠ some '/' := by
      intro d hd s
      unfold optText
      split
      · simp
      · simpa using hd
    have hrest : (optText '?' p.query ++ optText '#' p.fragment).head? ≠ some '/' := by
      have h1 := hx '?' (by decide) p.query
      have h2 := hx '#' (by decide) p.fragment
      cases hq : optText '?' p.query with
      | nil => simpa using h2
      | cons b l => rw [hq] at h1; simpa using h1
    have ht := h.path.2
    generalize p.path = pp at ht
    generalize hr : optText '?' p.query ++ optText '#' p.fragment = rest at hrest
    rw [List.append_assoc, hr]
    unfold splitNetloc
    split
    · next x hx =>
      exfalso
      rcases pp with _ | ⟨b, _ | ⟨c, l⟩⟩
      · simp only [List.nil_append] at hx; rw [hx] at hrest; exact hrest rfl
      · simp only [List.cons_append, List.nil_append, List.cons.injEq] at hx
        rw [hx.2] at hrest; exact hrest rfl
      · simp only [List.cons_append, List.cons.injEq] at hx
        rw [hx.1, hx.2.1] at ht; exact ht rfl
    · rfl
  have e6 : (partition '#' (p.path ++ optText '?' p.query ++ optText '#' p.fragment)).getD
      (p.path ++ optText '?' p.query ++ optText '#' p.fragment, []) = (p.path ++ optText '?' p.query, p.fragment) := by
    refine partition_opt ?_
    exact (Free.append (h.path.1.mono (es := ['#']) (by simp)) (free_opt (by decide) h.query)).notMem (by simp)
  have e7 : (partition '?' (p.path ++ optText '?' p.query)).getD (p.path ++ optText '?' p.query, []) = (p.path, p.query) :=
    partition_opt (h.path.1.notMem (by simp))
  have e8 : checkBrackets L [] = .ok () := rfl
  have e9 : checkNetloc L [] = .ok () := rfl
  unfold urlsplit
  simp only [e1, e2, e4, e5, e8, bind, Except.bind, e6, e7, e9]

theorem urlunsplit_opaque {p : Opaque} (h : p.Valid) (hb : p.scheme ∉ usesNetloc.map String.toList) :
    urlunsplit ⟨p.scheme, [], p.path, p.query, p.fragment⟩ = p.text := by
  obtain ⟨a, r, hs, _⟩ := h.scheme
  have hsn : p.scheme ≠ [] := by rw [hs]; simp
  have hn : ¬ (([] : Str) ≠ [] ∨ (p.scheme ≠ [] ∧ p.scheme ∈ usesNetloc.map String.toList) ∨ p.path.take 2 = ['/', '/']) := by
    rintro (h1 | h1 | h1)
    · exact h1 rfl
    · exact hb h1.2
    · exact h.path.2 h1
  unfold urlunsplit
  simp only [if_neg hn, if_pos hsn, Opaque.text, optText]
  by_cases hq : p.query = [] <;> by_cases hf : p.fragment = [] <;> simp [hq, hf]

/-- The quoted path does not begin with `//` unless the path does. -/
theorem denotes_slash {t : Str} {d : List (UInt8 × Bool)} (h : Denotes Iri.safePath (octets ('/' :: t)) d) :
    ∃ e, d = (asc '/', true) :: e ∧ Denotes Iri.safePath (octets t) e := by
  generalize ho : octets ('/' :: t) = out at h
  cases h with
  | nil => cases ho
  | plain hc h' =>
    rename_i c _ _
    simp only [octets, List.map_cons, List.cons.injEq] at ho
    have hlt : c.toNat < 128 := by
      rcases hc with hc | hc
      · exact (Iri.unreserved_ascii hc).1
      · exact Iri.safePath_ok.ascii _ hc
    have : c = '/' := (GenName.octet_inj (by decide) hlt ho.1).symm
    subst this
    exact ⟨_, by simp only [List.cons.injEq, and_true]; decide, ho.2 ▸ h'⟩
  | esc _ _ _ =>
    simp only [octets, List.map_cons, List.cons.injEq] at ho
    exact absurd ho.1 (by decide)

theorem pieces_slash {ps : List Piece} {e : List (UInt8 × Bool)} (h : ps.flatMap (Piece.marked Iri.safePath) = (asc '/', true) :: e) :
    ∃ qs, ps = .char '/' :: qs ∧ qs.flatMap (Piece.marked Iri.safePath) = e := by
  cases ps with
  | nil => cases h
  | cons p ps =>
    cases p with
    | esc a b => simp [Piece.marked] at h
    | char c =>
      simp only [List.flatMap_cons, Piece.marked] at h
      have hc : c = '/' := by
        have hm : asc '/' ∈ Iri.utf8 c := by
          rw [Iri.utf8_eq]
          cases hu : String.utf8EncodeChar c with
          | nil => exact absurd ((Iri.utf8_eq c).trans hu) (Iri.utf8_ne_nil c)
          | cons x l =>
            rw [hu] at h
            simp only [List.map_cons, List.cons_append, List.cons.injEq, Prod.mk.injEq] at h
            rw [← h.1.1]; simp
        have := (Iri.mem_utf8_ascii hm (by decide)).2
        rw [← Char.ofNat_toNat c, this]; rfl
      subst hc
      refine ⟨ps, rfl, ?_⟩
      have hu : String.utf8EncodeChar '/' = [asc '/'] := by decide
      rw [hu] at h
      simp only [List.map_cons, List.map_nil, List.cons_append, List.nil_append, List.cons.injEq] at h
      exact h.2

theorem means_pieces {safe s : Str} {d : List (UInt8 × Bool)} (h : Means safe s d) :
    ∃ ps : List Piece, s = ps.flatMap Piece.text ∧ d = ps.flatMap (Piece.marked safe) := by
  cases h with
  | none => exact ⟨[], rfl, rfl⟩
  | plain _ =>
    refine ⟨s.map .char, ?_, rfl⟩
    clear * -
    induction s with
    | nil => rfl
    | cons a l ih => rw [List.map_cons, List.flatMap_cons, ← ih]; rfl
  | escaped he _ _ => exact ⟨_, he.1, rfl⟩

theorem quoted_slashes {s t : Str} {d : List (UInt8 × Bool)} (hm : Means Iri.safePath s d) (h : Denotes Iri.safePath (octets t) d)
    (ht : t.take 2 = ['/', '/']) : s.take 2 = ['/', '/'] := by
  obtain ⟨r, rfl⟩ : ∃ r, t = '/' :: '/' :: r := by
    rcases t with _ | ⟨a, _ | ⟨b, r⟩⟩ <;> simp at ht
    exact ⟨r, by rw [ht.1, ht.2]⟩
  obtain ⟨e, rfl, h1⟩ := denotes_slash h
  obtain ⟨e', rfl, _⟩ := denotes_slash h1
  obtain ⟨ps, rfl, hp⟩ := means_pieces hm
  obtain ⟨qs, rfl, hq⟩ := pieces_slash hp.symm
  obtain ⟨rs, rfl, _⟩ := pieces_slash hq
  rfl

/-- The parts before and after quoting. -/
structure QuotedOpaque (p q : Opaque) : Prop where
  scheme : q.scheme = p.scheme
  path : Iri.urlquote p.path Iri.safePath = .ok (optBytes q.path)
  query : Iri.urlquote p.query Iri.safeQuery = .ok (optBytes q.query)
  fragment : Iri.urlquote p.fragment Iri.safeQuery = .ok (optBytes q.fragment)

/-- Without host, normalisation leaves out only the path `/`. -/
theorem iriToUri_opaque (L : Lib) {p q : Opaque} (normalize : Bool) (hp : p.Valid) (hq : q.Valid) (hb : p.scheme ∉ usesNetloc.map String.toList)
    (h1 : ∀ c ∈ q.path, c.toNat < 128) (h2 : ∀ c ∈ q.query, c.toNat < 128) (h3 : ∀ c ∈ q.fragment, c.toNat < 128) (h : QuotedOpaque p q)
    (hne : normalize = false ∨ q.path ≠ ['/'] ∨ q.query ≠ [] ∨ q.fragment ≠ []) : iriToUri L p.text normalize = .ok (octets q.text) := by
  obtain ⟨a, r, hs, _, hc⟩ := hp.chars
  have hsc : ∀ c ∈ p.scheme, c.toNat < 128 := fun c h => schemeChar_ascii (hc c h)
  have e1 : hostname L [] = none := rfl
  have e2 : userinfo [] = (none, none) := rfl
  have e3 : port [] = .ok none := rfl
  have e4 : ∀ x, portBytes x none normalize = [] := fun _ => rfl
  have e5 : userBytes none none = [] := rfl
  have e6 : quoteOpt none Iri.safeUser = .ok none := rfl
  have e7 : asciiText (some []) = .ok [] := rfl
  have hpath : ¬ (normalize = true ∧ optBytes q.query = none ∧ optBytes q.fragment = none ∧ optBytes q.path = some [0x2f]) := by
    have e : ∀ s, optBytes s = none ↔ s = [] := by intro s; unfold optBytes; split <;> simp_all
    rintro ⟨g1, g2, g3, g4⟩
    rcases hne with hn | hn | hn | hn
    · rw [hn] at g1; cases g1
    · refine hn ?_
      unfold optBytes at g4
      split at g4
      · cases g4
      · injection g4 with g4
        exact octets_inj h1 (by decide) g4
    · exact hn ((e _).mp g2)
    · exact hn ((e _).mp g3)
  unfold iriToUri
  rw [urlsplit_opaque L hp]
  simp only [bind, Except.bind, quote_scheme hc (by rw [hs]; simp), e1, e2, e3, e4, e5, e6, h.path, h.query, h.fragment, Option.getD_none,
    List.append_nil, if_neg hpath, e7, asciiText_octets hsc, asciiText_opt h1, asciiText_opt h2, asciiText_opt h3]
  rw [← urlunsplit_opaque hq (by rw [h.scheme]; exact hb), h.scheme]

theorem uriToIri_opaque (L : Lib) {p q : Opaque} (hp : p.Valid) (hq : q.Valid) (hb : p.scheme ∉ usesNetloc.map String.toList)
    (ha : ∀ c ∈ q.text, c.toNat < 128) (hs : p.scheme = q.scheme)
    (h1 : Iri.unquotePath (octets q.path) = .ok p.path) (h2 : Iri.unquoteQuery (octets q.query) = .ok p.query)
    (h3 : Iri.unquoteFragment (octets q.fragment) = .ok p.fragment) : uriToIri L (octets q.text) = .ok p.text := by
  have e1 : hostname L [] = none := rfl
  have e2 : userinfo [] = (none, none) := rfl
  have e3 : port [] = .ok none := rfl
  unfold uriToIri
  rw [asciiText_octets ha]
  simp only [bind, Except.bind]
  rw [urlsplit_opaque L hq]
  simp only [e1, e2, e3, h1, h2, h3]
  rw [← urlunsplit_opaque hp hb, hs]
  rfl

end Asn1.Url
