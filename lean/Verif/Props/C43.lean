import Verif.Lemmas.Iri

/-!
# C43: percent-encoding of the components of a URI

`urlquote` turns a component of an IRI into one of a URI, the `unquote…` functions go back. `Spec/Iri.lean` says what a
URI text denotes.

What holds for all texts: the result is ASCII, with nothing but unreserved characters, the delimiters of the component and
escapes. For texts without `%XX`, going back gives the text again, except for the control characters that the code uses as
place holders. For texts with escapes, the URI denotes the same bytes and has the same delimiters, unless there is a `NUL`,
an escaped `NUL`, an escaped `%` or a `%` that does not begin an escape; in these cases the code changes the meaning or
raises an exception, see the `_fails` theorems.
-/

namespace Asn1.Props
open Asn1 Asn1.Iri Spec.Iri

/-- The texts of delimiters of the four components. -/
def Component (safe : Str) : Prop := safe = safeUser ∨ safe = safePath ∨ safe = safeQuery

theorem Component.ok {safe : Str} (h : Component safe) : SafeSet safe := by
  rcases h with rfl | rfl | rfl
  · exact safeUser_ok
  · exact safePath_ok
  · exact safeQuery_ok

/-- The result consists of unreserved characters, delimiters of the component and escapes, and is pure ASCII. -/
theorem C43_shape {safe s : Str} {out : Bytes} (hc : Component safe) (h : urlquote s safe = .ok (some out)) :
    (∃ d, Denotes safe out d) ∧ ∀ b ∈ out, b.toNat < 128 := by
  obtain ⟨d, hd⟩ := urlquote_shape hc.ok h
  exact ⟨⟨d, hd⟩, Denotes.ascii hc.ok hd⟩

/-- Only the empty text has no result. -/
theorem C43_empty {safe s : Str} : urlquote s safe = .ok none ↔ s = [] := by
  constructor
  · intro h
    by_contra hs
    simp only [urlquote, if_neg hs] at h
    generalize (if hasEscape s = true then extractEscapes (unescapeRuns safe [] s) else ([], s)) = t at h
    split at h
    · simp at h
    · generalize restoreEscapes _ _ = r at h
      cases r <;> simp [bind, Except.bind, pure, Except.pure] at h
  · rintro rfl; rfl

/-- Any text in which every `%` begins an escape, with escapes of other bytes than `NUL` and `%`: the URI text denotes the
same bytes, and the same ones of them are delimiters. -/
theorem C43_meaning_partial {safe s : Str} {ps : List Piece} (hc : Component safe) (hs : Escaped s ps) (hne : s ≠ [])
    (hnul : (0 : UInt8) ∉ ps.flatMap Piece.bytes) (hpct : ∀ a b, .esc a b ∈ ps → 16 * hexNum a + hexNum b ≠ 37) :
    ∃ out, urlquote s safe = .ok (some out) ∧ Denotes safe out (ps.flatMap (Piece.marked safe)) :=
  urlquote_pieces hc.ok hs hne hnul hpct

/-- A text without escapes: the URI text denotes its UTF-8 bytes, and its delimiters are those of the text. -/
theorem C43_plain_meaning {safe s : Str} (hc : Component safe) (hs : NoEscape s) (hne : s ≠ []) :
    ∃ out, urlquote s safe = .ok (some out) ∧ Denotes safe out ((s.map Piece.char).flatMap (Piece.marked safe)) := by
  refine ⟨_, urlquote_plain hs hne, ?_⟩
  rw [← map_mark_encode hc.ok]
  exact quoteBytes_denotes hc.ok _

/-- Unquoting without special characters gives the text whose UTF-8 bytes are denoted. -/
theorem C43_unquote {safe s : Str} {out : Bytes} {d : List (UInt8 × Bool)} (hc : Component safe) (h : Denotes safe out d)
    (hd : d.map Prod.fst = utf8Bytes s) : unquoteFragment out = .ok s := by
  simp only [unquoteFragment, urlunquote]
  split
  · next hn =>
    subst hn
    cases h
    cases s with
    | nil => rfl
    | cons c s =>
      rw [← encodeUtf8_eq] at hd
      exact absurd hd.symm (encode_ne_nil (by simp))
  · simp only [Bool.false_eq_true, if_false, bind, Except.bind, List.foldl_nil, pure, Except.pure]
    rw [unquoteBytes_denotes hc.ok h, hd, ← encodeUtf8_eq, decodeIri_utf8]

/-- Round trip of a fragment without escapes. -/
theorem C43_fragment_partial {s : Str} (hs : NoEscape s) (hne : s ≠ []) :
    ∃ out, urlquote s safeQuery = .ok (some out) ∧ unquoteFragment out = .ok s := by
  refine ⟨_, urlquote_plain hs hne, ?_⟩
  simp only [unquoteFragment, urlunquote, if_neg (quoteBytes_ne_nil (encode_ne_nil hne))]
  simp only [Bool.false_eq_true, if_false, bind, Except.bind, List.foldl_nil, pure, Except.pure]
  rw [unquoteBytes_denotes safeQuery_ok (quoteBytes_denotes safeQuery_ok _)]
  have : ((encodeUtf8 s).map (mark safeQuery)).map Prod.fst = encodeUtf8 s := by
    rw [List.map_map]; exact List.map_id'' (fun _ => rfl) _
  rw [this, decodeIri_utf8]

theorem not_hex {x : UInt8} (h : x ∉ "0123456789abcdefABCDEF".toList.map asc) : ∀ c, isHex c → asc c ≠ x :=
  fun _ hc he => h (he ▸ List.mem_map_of_mem hc)

/-- Round trip of a path without escapes and U+001A, which the code uses in place of `/`. -/
theorem C43_path_partial {s : Str} (hs : NoEscape s) (hne : s ≠ []) (h1A : Char.ofNat 26 ∉ s) :
    ∃ out, urlquote s safePath = .ok (some out) ∧ unquotePath out = .ok s := by
  refine ⟨_, urlquote_plain hs hne, ?_⟩
  simp only [unquotePath, urlunquote, if_neg (quoteBytes_ne_nil (encode_ne_nil hne)), if_true, replacements, preserveChars,
    bind, Except.bind, pure, Except.pure]
  simp only [List.foldl_cons, List.foldl_nil]
  rw [unquote_replace safePath_ok (not_hex (by decide)) (by decide) (by decide) (by decide)]
  have e : replace (UInt8.ofNat '/'.toNat) [UInt8.ofNat 26] (encodeUtf8 s) = encodeUtf8 (replace '/' [Char.ofNat 26] s) :=
    replace_encode (c := '/') (t := [Char.ofNat 26]) (by decide) (by decide) s
  rw [e]
  have hno : '/' ∉ replace '/' [Char.ofNat 26] s := by
    simp only [replace, List.mem_flatMap, not_exists, not_and]
    intro c _
    split <;> simp_all [eq_comm]
  have e2 : replace (UInt8.ofNat '/'.toNat) (List.map (fun h => UInt8.ofNat h.toNat) (pctLower (UInt8.ofNat '/'.toNat)))
      (encodeUtf8 (replace '/' [Char.ofNat 26] s)) = encodeUtf8 (replace '/' [Char.ofNat 26] s) := by
    have := replace_encode (c := '/') (t := pctLower (UInt8.ofNat '/'.toNat)) (by decide) (by decide)
      (replace '/' [Char.ofNat 26] s)
    rw [replace_absent hno] at this
    exact this
  rw [e2, decodeIri_utf8]
  congr 1
  clear hs hne e e2 hno
  induction s with
  | nil => rfl
  | cons c s ih =>
    have := ih (fun h => h1A (List.mem_cons_of_mem _ h))
    have hc : c ≠ Char.ofNat 26 := fun h => h1A (by simp [h])
    simp only [replace, List.flatMap_cons, List.flatMap_append] at this ⊢
    rw [this]
    by_cases h : c = '/'
    · subst h; rfl
    · simp [h, hc]

/-- Round trip of a query without escapes, U+001A and U+001C, which the code uses in place of `&` and `=`. -/
theorem C43_query_partial {s : Str} (hs : NoEscape s) (hne : s ≠ []) (h1A : Char.ofNat 26 ∉ s) (h1C : Char.ofNat 28 ∉ s) :
    ∃ out, urlquote s safeQuery = .ok (some out) ∧ unquoteQuery out = .ok s := by
  refine ⟨_, urlquote_plain hs hne, ?_⟩
  simp only [unquoteQuery, urlunquote, if_neg (quoteBytes_ne_nil (encode_ne_nil hne)), if_true, replacements, preserveChars,
    bind, Except.bind, pure, Except.pure]
  simp only [List.foldl_cons, List.foldl_nil]
  rw [unquote_replace2 safeQuery_ok (not_hex (by decide)) (by decide) (by decide) (by decide) (not_hex (by decide)) (by decide)
    (by decide) (by decide)]
  have e : ∀ s, replace (UInt8.ofNat '&'.toNat) [UInt8.ofNat 26] (encodeUtf8 s) = encodeUtf8 (replace '&' [Char.ofNat 26] s) :=
    replace_encode (c := '&') (t := [Char.ofNat 26]) (by decide) (by decide)
  have e' : ∀ s, replace (UInt8.ofNat '='.toNat) [UInt8.ofNat 28] (encodeUtf8 s) = encodeUtf8 (replace '=' [Char.ofNat 28] s) :=
    replace_encode (c := '=') (t := [Char.ofNat 28]) (by decide) (by decide)
  rw [e, e']
  have f : ∀ s, replace (UInt8.ofNat '&'.toNat) (List.map (fun h => UInt8.ofNat h.toNat) (pctLower (UInt8.ofNat '&'.toNat)))
      (encodeUtf8 s) = encodeUtf8 (replace '&' (pctLower (UInt8.ofNat '&'.toNat)) s) :=
    replace_encode (c := '&') (by decide) (by decide)
  have f' : ∀ s, replace (UInt8.ofNat '='.toNat) (List.map (fun h => UInt8.ofNat h.toNat) (pctLower (UInt8.ofNat '='.toNat)))
      (encodeUtf8 s) = encodeUtf8 (replace '=' (pctLower (UInt8.ofNat '='.toNat)) s) :=
    replace_encode (c := '=') (by decide) (by decide)
  rw [f, f', decodeIri_utf8]
  congr 1
  clear hs hne e e' f f'
  induction s with
  | nil => rfl
  | cons c s ih =>
    have := ih (fun h => h1A (List.mem_cons_of_mem _ h)) (fun h => h1C (List.mem_cons_of_mem _ h))
    have ha : c ≠ Char.ofNat 26 := fun h => h1A (by simp [h])
    have hb : c ≠ Char.ofNat 28 := fun h => h1C (by simp [h])
    simp only [replace, List.flatMap_cons, List.flatMap_append] at this ⊢
    rw [this]
    by_cases h : c = '&'
    · subst h; rfl
    by_cases h' : c = '='
    · subst h'; rfl
    · simp [h, h', ha, hb]

/-- A user name or password without escapes comes back with escapes in place of `:` and `@`, which are delimiters there. -/
theorem C43_user_partial {s : Str} (hs : NoEscape s) (hne : s ≠ []) :
    ∃ out, urlquote s safeUser = .ok (some out) ∧
      unquoteUser out = .ok (s.flatMap fun c => if c = ':' then "%3a".toList else if c = '@' then "%40".toList else [c]) := by
  refine ⟨_, urlquote_plain hs hne, ?_⟩
  simp only [unquoteUser, urlunquote, if_neg (quoteBytes_ne_nil (encode_ne_nil hne)), Bool.false_eq_true, if_false, bind,
    Except.bind, pure, Except.pure]
  simp only [List.foldl_cons, List.foldl_nil]
  rw [unquoteBytes_denotes safeUser_ok (quoteBytes_denotes safeUser_ok _)]
  have : ((encodeUtf8 s).map (mark safeUser)).map Prod.fst = encodeUtf8 s := by
    rw [List.map_map]; exact List.map_id'' (fun _ => rfl) _
  rw [this]
  have f : ∀ s, replace (UInt8.ofNat ':'.toNat) (List.map (fun h => UInt8.ofNat h.toNat) (pctLower (UInt8.ofNat ':'.toNat)))
      (encodeUtf8 s) = encodeUtf8 (replace ':' (pctLower (UInt8.ofNat ':'.toNat)) s) :=
    replace_encode (c := ':') (by decide) (by decide)
  have f' : ∀ s, replace (UInt8.ofNat '@'.toNat) (List.map (fun h => UInt8.ofNat h.toNat) (pctLower (UInt8.ofNat '@'.toNat)))
      (encodeUtf8 s) = encodeUtf8 (replace '@' (pctLower (UInt8.ofNat '@'.toNat)) s) :=
    replace_encode (c := '@') (by decide) (by decide)
  rw [f, f', decodeIri_utf8]
  congr 1
  clear hs hne f f' this
  induction s with
  | nil => rfl
  | cons c s ih =>
    simp only [replace, List.flatMap_cons, List.flatMap_append] at ih ⊢
    rw [ih]
    by_cases h : c = ':'
    · subst h; rfl
    by_cases h' : c = '@'
    · subst h'; rfl
    · simp [h, h']

/-! ### Where it fails -/

def ascii (s : String) : Bytes := s.toList.map asc

/-- `%2541` denotes the text `%41`, but the URI made from it has the escape `%41`, which denotes `A`. -/
theorem C43_escaped_percent_fails :
    urlquote "%2541".toList safePath = .ok (some (ascii "%41")) ∧ unquotePath (ascii "%41") = .ok ['A'] ∧
      unquotePath (ascii "%2541") = .ok "%41".toList := by decide +kernel

/-- A `%` that does not begin an escape can do so after the escape after it has been replaced. -/
theorem C43_stray_percent_fails :
    urlquote "%4%31".toList safePath = .ok (some (ascii "%41")) ∧ unquotePath (ascii "%4%31") = .ok "%41".toList := by
  decide +kernel

/-- An escaped `NUL` beside an escape that is not UTF-8 raises an `IndexError`. -/
theorem C43_nul_fails : urlquote "%00%ff".toList safePath = .error .indexError := by decide +kernel

/-- A `NUL` before an escape changes places with it. -/
theorem C43_nul_order_fails : urlquote [Char.ofNat 0, '%', 'f', 'f'] safePath = .error .indexError ∧
    urlquote "%ff".toList safePath = .ok (some (ascii "%ff")) := by decide +kernel

/-- U+001A in a path comes back as `/`, and in a query as `&`. -/
theorem C43_placeholder_fails : urlquote [Char.ofNat 26] safePath = .ok (some (ascii "%1A")) ∧
    unquotePath (ascii "%1A") = .ok ['/'] ∧ unquoteQuery (ascii "%1A") = .ok ['&'] := by decide +kernel

/-! ### Examples -/

/-- The hypotheses of the round trips hold for `ä/%/b c`. -/
example : NoEscape "ä/%/b c".toList ∧ "ä/%/b c".toList ≠ [] ∧ Char.ofNat 26 ∉ "ä/%/b c".toList ∧
    Char.ofNat 28 ∉ "ä/%/b c".toList ∧ urlquote "ä/%/b c".toList safePath = .ok (some (ascii "%C3%A4/%25/b%20c")) := by
  refine ⟨?_, by decide, by decide, by decide, by decide +kernel⟩
  rintro ⟨pre, a, b, post, h, ha, _⟩
  have h1 : '%' :: a :: b :: post = "ä/%/b c".toList.drop pre.length := by rw [h]; simp
  have h2 : pre.length ≤ 7 := by have := congrArg List.length h; simp at this; omega
  have : ∀ n ≤ 7, ∀ a b post, '%' :: a :: b :: post = "ä/%/b c".toList.drop n → a = '/' := by
    intro n hn a b post h
    interval_cases n <;> simp at h
    exact h.1
  rw [this _ h2 _ _ _ h1] at ha
  revert ha
  decide

/-- The hypotheses of `C43_meaning_partial` hold for `a/%2f%ff%C3%A4`: the escape of the delimiter stays one, the byte that
is not UTF-8 stays an escape and the others are quoted again. -/
example : Escaped "a/%2f%ff%C3%A4".toList [.char 'a', .char '/', .esc '2' 'f', .esc 'f' 'f', .esc 'C' '3', .esc 'A' '4'] ∧
    urlquote "a/%2f%ff%C3%A4".toList safePath = .ok (some (ascii "a/%2f%ff%C3%A4")) := by
  refine ⟨⟨rfl, ?_⟩, by decide +kernel⟩
  intro p hp
  simp only [List.mem_cons, List.not_mem_nil, or_false] at hp
  rcases hp with rfl | rfl | rfl | rfl | rfl | rfl <;> simp [Piece.WF] <;> decide

end Asn1.Props
