import Mathlib.Data.List.Induction
import Verif.Spec.Pem
import Verif.Lemmas.PyStr

namespace Asn1.Pem
open Asn1 Asn1.Spec

/-! ### Lines -/

def NoBreak (l : Bytes) : Prop := ∀ c ∈ l, c ≠ 10 ∧ c ≠ 13

theorem splitlinesGo_lf (cur r : Bytes) : splitlinesGo cur (10 :: r) = cur :: splitlinesGo [] r := by
  cases r <;> simp [splitlinesGo]

theorem splitlinesGo_crlf (cur r : Bytes) : splitlinesGo cur (13 :: 10 :: r) = cur :: splitlinesGo [] r := by
  simp [splitlinesGo]

theorem splitlinesGo_char (cur : Bytes) (c : UInt8) (r : Bytes) (h : c ≠ 10 ∧ c ≠ 13) :
    splitlinesGo cur (c :: r) = splitlinesGo (cur ++ [c]) r := by
  cases r <;> simp [splitlinesGo, h.1, h.2]

theorem splitlinesGo_line (l : Bytes) (h : NoBreak l) (cur r : Bytes) :
    splitlinesGo cur (l ++ r) = splitlinesGo (cur ++ l) r := by
  induction l generalizing cur with
  | nil => simp
  | cons c l ih =>
    rw [List.cons_append, splitlinesGo_char _ _ _ (h c (by simp)), ih (fun d hd => h d (by simp [hd]))]
    simp

theorem splitlines_line (l : Bytes) (h : NoBreak l) (r : Bytes) : splitlines (l ++ 10 :: r) = l :: splitlines r := by
  unfold splitlines
  rw [splitlinesGo_line l h, List.nil_append, splitlinesGo_lf]

theorem splitlines_line_crlf (l : Bytes) (h : NoBreak l) (r : Bytes) :
    splitlines (l ++ 13 :: 10 :: r) = l :: splitlines r := by
  unfold splitlines
  rw [splitlinesGo_line l h, List.nil_append, splitlinesGo_crlf]

theorem splitlines_lines (ls : List Bytes) (h : ∀ l ∈ ls, NoBreak l) (r : Bytes) :
    splitlines ((ls.flatMap fun l => l ++ [10]) ++ r) = ls ++ splitlines r := by
  induction ls with
  | nil => simp
  | cons l ls ih =>
    rw [List.flatMap_cons, List.append_assoc, List.append_assoc, List.singleton_append,
      splitlines_line l (h l (by simp)), ih (fun x hx => h x (by simp [hx])), List.cons_append]

theorem splitlinesGo_append (t : Bytes) (cur r : Bytes) (ht : t = [] ∧ cur = [] ∨ t.getLast? = some 10 ∨ t.getLast? = some 13)
    (hr : r.head? ≠ some 10) : splitlinesGo cur (t ++ r) = splitlinesGo cur t ++ splitlinesGo [] r := by
  fun_induction splitlinesGo cur t with
  | case1 => simp
  | case2 cur h =>
    rcases ht with ⟨_, h2⟩ | h | h
    · exact absurd h2 h
    · cases h
    · cases h
  | case3 cur c hc =>
    rcases hc with rfl | rfl
    · simp [splitlinesGo_lf]
    · cases r with
      | nil => simp [splitlinesGo]
      | cons d r =>
        have hd : d ≠ 10 := by simpa using hr
        simp [splitlinesGo, hd]
  | case4 cur c hc =>
    push Not at hc
    rcases ht with ⟨h, _⟩ | h | h
    · cases h
    · simp at h; exact absurd h hc.1
    · simp at h; exact absurd h hc.2
  | case5 cur d s ih =>
    rw [List.cons_append, splitlinesGo_lf, ih, List.cons_append]
    simpa [List.getLast?_cons_cons] using ht
  | case6 cur s _ ih =>
    rw [List.cons_append, List.cons_append, splitlinesGo_crlf, ih, List.cons_append]
    cases s with
    | nil => simp
    | cons x s => simpa [List.getLast?_cons_cons] using ht
  | case7 cur d s hd _ ih =>
    have h : splitlinesGo cur (13 :: d :: s ++ r) = cur :: splitlinesGo [] (d :: s ++ r) := by simp [splitlinesGo, hd]
    rw [h, ih, List.cons_append]
    simpa [List.getLast?_cons_cons] using ht
  | case8 cur c d s h1 h2 ih =>
    rw [List.cons_append, splitlinesGo_char _ _ _ ⟨h1, h2⟩, ih]
    simpa [List.getLast?_cons_cons] using ht

/-- Text that is empty or ends with a line break is split apart from what follows. -/
theorem splitlines_append (t r : Bytes) (ht : t = [] ∨ t.getLast? = some 10 ∨ t.getLast? = some 13)
    (hr : r.head? ≠ some 10) : splitlines (t ++ r) = splitlines t ++ splitlines r :=
  splitlinesGo_append t [] r (by tauto) hr

/-! ### Base64 -/

theorem b64Val_b64Char : ∀ n, n < 64 → b64Val (b64Char n) = some n ∧ b64Char n ≠ 61 := by decide

theorem b64Loop_char (quad left pads : Nat) (out : Bytes) (n : Nat) (h : n < 64) (cs : Bytes) :
    b64Loop quad left pads out (b64Char n :: cs) =
      if quad = 0 then b64Loop 1 n 0 out cs
        else if quad = 1 then b64Loop 2 (n % 16) 0 (out ++ [UInt8.ofNat (left * 4 + n / 16)]) cs
        else if quad = 2 then b64Loop 3 (n % 4) 0 (out ++ [UInt8.ofNat (left * 16 + n / 4)]) cs
        else b64Loop 0 0 0 (out ++ [UInt8.ofNat (left * 64 + n)]) cs := by
  rw [b64Loop, if_neg (b64Val_b64Char n h).2, (b64Val_b64Char n h).1]

theorem ofNat_eq (n : Nat) (a : UInt8) (h : n = a.toNat) : UInt8.ofNat n = a := by rw [h, UInt8.ofNat_toNat]

theorem b64Loop_encode (d : Bytes) (pads : Nat) (out : Bytes) : b64Loop 0 0 pads out (b64encode d) = .ok (out ++ d) := by
  fun_induction b64encode d generalizing pads out with
  | case1 => simp [b64Loop]
  | case2 a =>
    have ha := a.toNat_lt
    rw [b64Loop_char _ _ _ _ _ (by omega), if_pos rfl, b64Loop_char _ _ _ _ _ (by omega), if_neg (by decide), if_pos rfl]
    rw [ofNat_eq _ a (by omega)]
    simp [b64Loop]
  | case3 a b =>
    have ha := a.toNat_lt
    have hb := b.toNat_lt
    rw [b64Loop_char _ _ _ _ _ (by omega), if_pos rfl, b64Loop_char _ _ _ _ _ (by omega), if_neg (by decide), if_pos rfl,
      b64Loop_char _ _ _ _ _ (by omega), if_neg (by decide), if_neg (by decide), if_pos rfl]
    rw [ofNat_eq _ a (by omega), ofNat_eq _ b (by omega)]
    simp [b64Loop]
  | case4 a b c r ih =>
    have ha := a.toNat_lt
    have hb := b.toNat_lt
    have hc := c.toNat_lt
    rw [b64Loop_char _ _ _ _ _ (by omega), if_pos rfl, b64Loop_char _ _ _ _ _ (by omega), if_neg (by decide), if_pos rfl,
      b64Loop_char _ _ _ _ _ (by omega), if_neg (by decide), if_neg (by decide), if_pos rfl,
      b64Loop_char _ _ _ _ _ (by omega), if_neg (by decide), if_neg (by decide), if_neg (by decide), ih]
    rw [ofNat_eq _ a (by omega), ofNat_eq _ b (by omega), ofNat_eq _ c (by omega)]
    simp

theorem b64decode_encode (d : Bytes) : b64decode (b64encode d) = .ok d := by
  unfold b64decode
  rw [b64Loop_encode]; rfl

/-- Characters of base64 text. -/
def B64 (c : UInt8) : Prop := c ≠ 10 ∧ c ≠ 13 ∧ c ≠ 58 ∧ c ≠ 45

theorem b64Char_facts : ∀ n, n < 64 → b64Char n ≠ 10 ∧ b64Char n ≠ 13 ∧ b64Char n ≠ 58 ∧ b64Char n ≠ 45 := by decide

theorem b64encode_chars (d : Bytes) : ∀ c ∈ b64encode d, B64 c := by
  have h61 : B64 61 := by unfold B64; decide
  fun_induction b64encode d with
  | case1 => simp
  | case2 a =>
    have ha := a.toNat_lt
    intro c hc
    simp only [List.mem_cons, List.not_mem_nil, or_false] at hc
    rcases hc with rfl | rfl | rfl | rfl
    · exact b64Char_facts _ (by omega)
    · exact b64Char_facts _ (by omega)
    · exact h61
    · exact h61
  | case3 a b =>
    have ha := a.toNat_lt
    have hb := b.toNat_lt
    intro c hc
    simp only [List.mem_cons, List.not_mem_nil, or_false] at hc
    rcases hc with rfl | rfl | rfl | rfl
    · exact b64Char_facts _ (by omega)
    · exact b64Char_facts _ (by omega)
    · exact b64Char_facts _ (by omega)
    · exact h61
  | case4 a b c r ih =>
    have ha := a.toNat_lt
    have hb := b.toNat_lt
    have hc := c.toNat_lt
    intro x hx
    simp only [List.mem_cons] at hx
    rcases hx with rfl | rfl | rfl | rfl | hx
    · exact b64Char_facts _ (by omega)
    · exact b64Char_facts _ (by omega)
    · exact b64Char_facts _ (by omega)
    · exact b64Char_facts _ (by omega)
    · exact ih x hx

/-- The lines of the body: all but the last of 64 characters. -/
theorem bodyLoop_ok (b64 : Bytes) (fuel i : Nat) (out : Bytes) (h : b64.length < i + fuel) (hf : 0 < fuel) :
    ∃ ls : List Bytes, (∀ l ∈ ls, l ≠ [] ∧ l.length ≤ 64) ∧ ls.flatten = b64.drop i ∧
      bodyLoop b64 fuel i out = .ok (out ++ ls.flatMap fun l => l ++ [10]) := by
  induction fuel generalizing i out with
  | zero => omega
  | succ fuel ih =>
    rw [bodyLoop]
    by_cases hi : i < b64.length
    · rw [if_pos hi]
      obtain ⟨ls, h1, h2, h3⟩ := ih (i + 64) (out ++ slice b64 i (i + 64) ++ [10]) (by omega) (by omega)
      refine ⟨slice b64 i (i + 64) :: ls, ?_, ?_, ?_⟩
      · intro l hl
        rcases List.mem_cons.mp hl with rfl | hl
        · unfold slice
          refine ⟨fun h0 => ?_, ?_⟩
          · have := congrArg List.length h0
            simp at this; omega
          · simp; omega
        · exact h1 l hl
      · rw [List.flatten_cons, h2, slice, List.drop_take, Nat.add_sub_cancel_left, ← List.drop_drop, List.take_append_drop]
      · rw [h3, List.flatMap_cons]; simp
    · rw [if_neg hi]
      exact ⟨[], by simp, by simp; omega, by simp⟩

/-! ### ASCII -/

theorem encodeAscii_ok {s : Str} (h : ∀ c ∈ s, c.toNat < 128) : encodeAscii s = .ok (ascii s) := by
  unfold encodeAscii ascii
  rw [if_pos (by simpa using h)]

theorem decodeAscii_ascii {s : Str} (h : ∀ c ∈ s, c.toNat < 128) : decodeAscii (ascii s) = .ok s := by
  unfold decodeAscii ascii
  have h1 : ∀ c ∈ s, (UInt8.ofNat c.toNat).toNat = c.toNat := fun c hc => by
    have := h c hc
    rw [UInt8.toNat_ofNat_of_lt' (by simp [UInt8.size]; omega)]
  rw [if_pos, List.map_map]
  · congr 1
    conv => rhs; rw [← List.map_id s]
    apply List.map_congr_left
    intro c hc
    simp only [Function.comp, h1 c hc, id]
    exact Char.ofNat_toNat c
  · rw [List.all_eq_true]
    intro x hx
    obtain ⟨c, hc, rfl⟩ := List.mem_map.mp hx
    have := h c hc
    simp only [decide_eq_true_eq, UInt8.lt_iff_toNat_lt, h1 c hc]
    simpa using this

/-! ### Regular expression -/

theorem prefix_eq (a b : Bytes) : a.isPrefixOf b = true ↔ a <+: b := List.isPrefixOf_iff_prefix

theorem takeWhile_append_stop {α : Type} (p : α → Bool) (l : List α) (x : α) (r : List α) (h : ∀ c ∈ l, p c = true)
    (hx : p x = false) : (l ++ x :: r).takeWhile p = l := by
  induction l with
  | nil => simp [hx]
  | cons c l ih => simp [h c (by simp), ih (fun d hd => h d (by simp [hd]))]

/-- A BEGIN line as `armor` writes it. -/
theorem matchBegin_line {n : Bytes} (h0 : n ≠ []) (h : ∀ c ∈ n, nameChar c = true) :
    matchBegin (lit "-----BEGIN " ++ n ++ lit "-----") = some n := by
  have e1 : lit "-----BEGIN " = [45, 45, 45, 45, 45, 66, 69, 71, 73, 78, 32] := by decide
  have e2 : lit "-----" = [45, 45, 45, 45, 45] := by decide
  unfold matchBegin
  rw [if_pos]
  · have hd : (lit "-----BEGIN " ++ n ++ lit "-----").drop 11 = n ++ lit "-----" := by
      rw [e1]; simp
    rw [hd]
    simp only
    have ht : (n ++ lit "-----").takeWhile nameChar = n := by
      rw [e2]; exact takeWhile_append_stop _ _ _ _ h (by decide)
    rw [ht]
    cases hn : n.length with
    | zero => exact absurd (List.length_eq_zero_iff.mp hn) h0
    | succ k =>
      rw [matchName, ← hn, List.drop_left, List.take_left, if_pos (by simp)]
  · simp [List.append_assoc]

theorem matchBegin_none {l : Bytes} (h : ¬ BeginLike l) : matchBegin l = none := by
  unfold matchBegin
  rw [if_neg]
  intro hc
  simp only [Bool.or_eq_true, prefix_eq] at hc
  exact h hc.symm

theorem objectType_char {c : Char} (h : ('A' ≤ c ∧ c ≤ 'Z') ∨ ('0' ≤ c ∧ c ≤ '9') ∨ c = ' ') :
    c.toNat < 128 ∧ nameChar (UInt8.ofNat c.toNat) = true := by
  have : (65 ≤ c.toNat ∧ c.toNat ≤ 90) ∨ (48 ≤ c.toNat ∧ c.toNat ≤ 57) ∨ c.toNat = 32 := by
    rcases h with h | h | h
    · exact Or.inl h
    · exact Or.inr (Or.inl h)
    · subst h; decide
  generalize c.toNat = n at this ⊢
  have h1 : n < 128 := by omega
  refine ⟨h1, ?_⟩
  have : ∀ n < 128, (65 ≤ n ∧ n ≤ 90) ∨ (48 ≤ n ∧ n ≤ 57) ∨ n = 32 → nameChar (UInt8.ofNat n) = true := by decide
  apply this <;> assumption

theorem nameChar_facts : ∀ c : UInt8, nameChar c = true → c ≠ 10 ∧ c ≠ 13 ∧ c ≠ 58 ∧ c ≠ 45 := by
  intro c hc
  refine ⟨?_, ?_, ?_, ?_⟩ <;> (rintro rfl; revert hc; decide)

theorem mem_ascii {n : UInt8} {s : Str} : n ∈ ascii s ↔ ∃ c ∈ s, UInt8.ofNat c.toNat = n := by simp [ascii]

theorem objectType_ascii {s : Str} (h : ObjectType s) : ascii s ≠ [] ∧ ∀ c ∈ ascii s, nameChar c = true := by
  refine ⟨by simpa [ascii] using h.1, fun c hc => ?_⟩
  obtain ⟨x, hx, rfl⟩ := mem_ascii.mp hc
  exact (objectType_char (h.2 x hx)).2

theorem objectType_lt {s : Str} (h : ObjectType s) : ∀ c ∈ s, c.toNat < 128 := fun c hc => (objectType_char (h.2 c hc)).1

theorem upper_objectType {s : Str} (h : ObjectType s) : upper s = s := by
  unfold upper
  conv => rhs; rw [← List.map_id s]
  apply List.map_congr_left
  intro c hc
  rw [if_neg, id]
  have := h.2 c hc
  rcases this with h | h | h
  · have : c.toNat ≤ 90 := h.2
    omega
  · have : c.toNat ≤ 57 := h.2
    omega
  · subst h; decide

/-! ### Headers -/

theorem pyIsSpace_white {c : Char} (h : c.toNat < 128) (hw : ¬ White c) : pyIsSpace c = false := by
  have hs : c ≠ ' ' := fun h => hw (Or.inl h)
  have : c.toNat ≠ 32 := fun h => hs (Char.toNat_inj.mp h)
  have h2 : ¬ (9 ≤ c.toNat ∧ c.toNat ≤ 13) := fun h => hw (Or.inr (Or.inl h))
  have h3 : ¬ (28 ≤ c.toNat ∧ c.toNat ≤ 31) := fun h => hw (Or.inr (Or.inr h))
  unfold pyIsSpace
  generalize c.toNat = n at *
  simp
  omega

theorem dropWhile_head {α : Type} (p : α → Bool) (s : List α) (h : ∀ c, s.head? = some c → p c = false) :
    s.dropWhile p = s := by
  cases s with
  | nil => rfl
  | cons c s => simp [h c rfl]

theorem pyStrip_value {v : Str} (ha : ∀ c ∈ v, c.toNat < 128) (h1 : ∀ c, v.head? = some c → ¬ White c)
    (h2 : ∀ c, v.getLast? = some c → ¬ White c) : pyStrip (' ' :: v) = v := by
  unfold pyStrip pyLstrip pyRstrip
  have hsp : pyIsSpace ' ' = true := by decide
  rw [List.dropWhile_cons, if_pos hsp, dropWhile_head _ v, dropWhile_head _ v.reverse, List.reverse_reverse]
  · intro c hc
    rw [List.head?_reverse] at hc
    exact pyIsSpace_white (ha c (List.mem_of_getLast? hc)) (h2 c hc)
  · intro c hc
    exact pyIsSpace_white (ha c (List.mem_of_head? hc)) (h1 c hc)

def headerLine (h : Str × Str) : Bytes := ascii (h.1 ++ [':', ' '] ++ h.2)

theorem headerLine_eq (h : Str × Str) : headerLine h = ascii h.1 ++ lit ": " ++ ascii h.2 := by
  have : lit ": " = ascii [':', ' '] := by decide
  rw [this]; simp [headerLine, ascii]

theorem headerLines_ok {hs : List (Str × Str)} (h : ∀ x ∈ hs, HeaderOk x) :
    headerLines hs = .ok (hs.flatMap fun x => headerLine x ++ [10]) := by
  induction hs with
  | nil => rfl
  | cons x hs ih =>
    obtain ⟨k, v⟩ := x
    have hx := h _ (List.mem_cons_self)
    rw [headerLines, encodeAscii_ok (fun c hc => (hx.ascii c (by simp [hc])).1),
      encodeAscii_ok (fun c hc => (hx.ascii c (by simp [hc])).1), ih (fun y hy => h y (by simp [hy]))]
    simp only [bind, Except.bind, List.flatMap_cons, headerLine_eq]

theorem ofNat_ne {c : Char} (h : c.toNat < 128) (d : Char) (hd : d.toNat < 128) (hne : c ≠ d) :
    UInt8.ofNat c.toNat ≠ UInt8.ofNat d.toNat := by
  intro he
  have := congrArg UInt8.toNat he
  rw [UInt8.toNat_ofNat_of_lt' (by simp [UInt8.size]; omega), UInt8.toNat_ofNat_of_lt' (by simp [UInt8.size]; omega)] at this
  exact hne (Char.toNat_inj.mp this)

theorem headerLine_lt {x : Str × Str} (h : HeaderOk x) : ∀ c ∈ x.1 ++ [':', ' '] ++ x.2, c.toNat < 128 ∧ c ≠ '\n' ∧ c ≠ '\r' := by
  intro c hc
  simp only [List.mem_append, List.mem_cons, List.not_mem_nil, or_false] at hc
  rcases hc with (hc | rfl | rfl) | hc
  · exact h.ascii c (by simp [hc])
  · decide
  · decide
  · exact h.ascii c (by simp [hc])

theorem headerLine_noBreak {x : Str × Str} (h : HeaderOk x) : NoBreak (headerLine x) := by
  intro c hc
  obtain ⟨d, hd, rfl⟩ := mem_ascii.mp hc
  have := headerLine_lt h d hd
  exact ⟨ofNat_ne this.1 '\n' (by decide) this.2.1, ofNat_ne this.1 '\r' (by decide) this.2.2⟩

/-- Outside any block. -/
def idle (fs fe : Bool) : Locals := { foundStart := fs, foundEnd := fe }

theorem dictSet_new {d : List (Str × Str)} {k v : Str} (h : k ∉ d.map Prod.fst) : dictSet d k v = d ++ [(k, v)] := by
  unfold dictSet
  rw [if_neg]
  rintro hc
  obtain ⟨e, he, hk⟩ := List.any_eq_true.mp hc
  have : e.1 = k := by simpa using hk
  exact h (this ▸ List.mem_map_of_mem he)

/-- The headers that are read from these lines. -/
def collected (d hs : List (Str × Str)) : List (Str × Str) := hs.foldl (fun d x => dictSet d x.1 x.2) d

theorem eraseDups_snoc (l : List Str) (k : Str) : (l ++ [k]).eraseDups = if k ∈ l then l.eraseDups else l.eraseDups ++ [k] := by
  rw [List.eraseDups_append]
  by_cases h : k ∈ l
  · have : [k].removeAll l = [] := by simp [List.removeAll, h]
    rw [this, if_pos h]
    simp
  · have : [k].removeAll l = [k] := by simp [List.removeAll, h]
    rw [this, if_neg h]
    simp [List.eraseDups_cons]

theorem mem_eraseDups (l : List Str) (k : Str) : k ∈ l.eraseDups ↔ k ∈ l := by
  induction l using List.reverseRecOn with
  | nil => simp
  | append_singleton l a ih =>
    rw [eraseDups_snoc]
    split
    · rename_i h
      rw [ih]
      constructor
      · intro hk; simp [hk]
      · intro hk
        rcases List.mem_append.mp hk with hk | hk
        · exact hk
        · rw [List.mem_singleton.mp hk]; exact h
    · simp [ih]

theorem eraseDups_nodup {l : List Str} (h : l.Nodup) : l.eraseDups = l := by
  induction l using List.reverseRecOn with
  | nil => rfl
  | append_singleton l a ih =>
    rw [List.nodup_append] at h
    rw [eraseDups_snoc, if_neg (fun hm => h.2.2 a hm a (by simp) rfl), ih h.1]

theorem dictSet_last {hs ds : List (Str × Str)} (h : LastValues hs ds) (x : Str × Str) : LastValues (hs ++ [x]) (dictSet ds x.1 x.2) := by
  obtain ⟨h1, h2⟩ := h
  by_cases hk : x.1 ∈ ds.map Prod.fst
  · have ha : ds.any (fun e => e.1 == x.1) = true := by
      obtain ⟨e, he, hx⟩ := List.mem_map.mp hk
      exact List.any_eq_true.mpr ⟨e, he, by simp [hx]⟩
    have hm : x.1 ∈ hs.map Prod.fst := by rw [h1, mem_eraseDups] at hk; exact hk
    unfold dictSet
    rw [if_pos ha]
    constructor
    · rw [List.map_append, List.map_cons, List.map_nil, eraseDups_snoc, if_pos hm, ← h1, List.map_map]
      apply List.map_congr_left
      intro e _
      simp only [Function.comp]
      split
      · rename_i he; simpa using (by simpa using he : e.1 = x.1).symm
      · rfl
    · intro d hd
      obtain ⟨e, he, rfl⟩ := List.mem_map.mp hd
      by_cases hx : e.1 = x.1
      · exact ⟨hs, [], by simp [hx], by simp⟩
      · obtain ⟨pre, post, e1, e2⟩ := h2 e he
        simp only [beq_iff_eq, if_neg hx]
        refine ⟨pre, post ++ [x], by simp [e1], ?_⟩
        intro y hy
        rcases List.mem_append.mp hy with hy | hy
        · exact e2 y hy
        · rw [List.mem_singleton.mp hy]; exact fun h => hx h.symm
  · rw [dictSet_new hk]
    have hm : x.1 ∉ hs.map Prod.fst := by rw [h1, mem_eraseDups] at hk; exact hk
    constructor
    · simp only [List.map_append, List.map_cons, List.map_nil]
      rw [eraseDups_snoc, if_neg hm, h1]
    · intro d hd
      rcases List.mem_append.mp hd with hd | hd
      · obtain ⟨pre, post, e1, e2⟩ := h2 d hd
        refine ⟨pre, post ++ [x], by simp [e1], ?_⟩
        intro y hy
        rcases List.mem_append.mp hy with hy | hy
        · exact e2 y hy
        · rw [List.mem_singleton.mp hy]
          intro h
          exact hk (h ▸ List.mem_map_of_mem hd)
      · rw [List.mem_singleton.mp hd]
        exact ⟨hs, [], by simp, by simp⟩

theorem collected_last (hs : List (Str × Str)) : LastValues hs (collected [] hs) := by
  induction hs using List.reverseRecOn with
  | nil => exact ⟨rfl, by simp [collected]⟩
  | append_singleton hs x ih =>
    unfold collected at ih ⊢
    rw [List.foldl_append]
    exact dictSet_last ih x

theorem last_find {hs pre post : List (Str × Str)} {d : Str × Str} (h : hs = pre ++ d :: post) (hl : ∀ e ∈ post, e.1 ≠ d.1) :
    hs.reverse.find? (fun e => e.1 == d.1) = some d := by
  have hn : post.reverse.find? (fun e => e.1 == d.1) = none := by
    rw [List.find?_eq_none]
    intro e he
    simpa using hl e (List.mem_reverse.mp he)
  rw [h, List.reverse_append, List.reverse_cons, List.append_assoc, List.find?_append, hn]
  simp

/-- The dict is determined by the entries. -/
theorem last_unique {hs a b : List (Str × Str)} (ha : LastValues hs a) (hb : LastValues hs b) : a = b := by
  have key : ∀ (a b : List (Str × Str)), a.map Prod.fst = b.map Prod.fst → (∀ d ∈ a, hs.reverse.find? (fun e => e.1 == d.1) = some d) →
      (∀ d ∈ b, hs.reverse.find? (fun e => e.1 == d.1) = some d) → a = b := by
    intro a
    induction a with
    | nil => intro b h _ _; cases b with
      | nil => rfl
      | cons _ _ => cases h
    | cons x a ih => intro b h h1 h2; cases b with
      | nil => cases h
      | cons y b =>
        simp only [List.map_cons, List.cons.injEq] at h
        have e1 := h1 x (by simp)
        have e2 := h2 y (by simp)
        rw [h.1] at e1
        have : x = y := by rw [e1] at e2; injection e2
        rw [this, ih b h.2 (fun d hd => h1 d (by simp [hd])) (fun d hd => h2 d (by simp [hd]))]
  refine key a b (by rw [ha.1, hb.1]) ?_ ?_
  · intro d hd
    obtain ⟨pre, post, e1, e2⟩ := ha.2 d hd
    exact last_find e1 e2
  · intro d hd
    obtain ⟨pre, post, e1, e2⟩ := hb.2 d hd
    exact last_find e1 e2

theorem last_nodup {hs : List (Str × Str)} (h : (hs.map Prod.fst).Nodup) : LastValues hs hs := by
  refine ⟨(eraseDups_nodup h).symm, fun d hd => ?_⟩
  obtain ⟨pre, post, rfl⟩ := List.append_of_mem hd
  refine ⟨pre, post, rfl, fun e he hx => ?_⟩
  rw [List.map_append, List.map_cons, List.nodup_append, List.nodup_cons] at h
  exact h.2.1.1 (hx ▸ List.mem_map_of_mem he)

theorem lineStep_header {l : Locals} (hs : l.state = .headers) {x : Str × Str} (h : HeaderOk x) :
    lineStep l (headerLine x) = .ok (none, { l with headers := dictSet l.headers x.1 x.2 }) := by
  have hcol : (headerLine x).contains 58 = true := by
    rw [List.contains_iff_mem, headerLine_eq]
    have : (58 : UInt8) ∈ lit ": " := by decide
    simp [this]
  have h0 : headerLine x ≠ [] := fun h0 => by rw [h0] at hcol; simp at hcol
  unfold lineStep
  rw [if_neg h0, hs]
  simp only
  rw [if_pos hcol]
  have hdec : decodeAscii (headerLine x) = .ok (x.1 ++ [':', ' '] ++ x.2) :=
    decodeAscii_ascii (fun c hc => (headerLine_lt h c hc).1)
  rw [hdec]
  simp only [bind, Except.bind]
  have h1 : (x.1 ++ [':', ' '] ++ x.2).takeWhile (· ≠ ':') = x.1 := by
    rw [List.append_assoc]
    apply takeWhile_append_stop
    · intro c hc
      have : c ≠ ':' := fun e => h.colon (e ▸ hc)
      simpa using this
    · simp
  have h2 : (x.1 ++ [':', ' '] ++ x.2).dropWhile (· ≠ ':') = [':', ' '] ++ x.2 := by
    have := List.takeWhile_append_dropWhile (p := (· ≠ ':')) (l := x.1 ++ [':', ' '] ++ x.2)
    rw [h1] at this
    exact List.append_cancel_left (this.trans (List.append_assoc _ _ _))
  rw [h1, h2]
  have h3 : pyStrip (([':', ' '] ++ x.2).drop 1) = x.2 :=
    pyStrip_value (fun c hc => (h.ascii c (List.mem_append.mpr (Or.inr hc))).1) h.first h.last
  rw [h3]

theorem lineLoop_headers {hs : List (Str × Str)} (h : ∀ x ∈ hs, HeaderOk x) (l : Locals) (hst : l.state = .headers) (rest : List Bytes) :
    lineLoop l (hs.map headerLine ++ rest) = lineLoop { l with headers := collected l.headers hs } rest := by
  induction hs generalizing l with
  | nil => simp [collected]
  | cons x hs ih =>
    rw [List.map_cons, List.cons_append, lineLoop, lineStep_header hst (h x (by simp))]
    simp only
    rw [ih (fun y hy => h y (by simp [hy])) { l with headers := dictSet l.headers x.1 x.2 } hst]
    rfl

/-! ### Blocks -/

theorem lineLoop_empty (l : Locals) (rest : List Bytes) : lineLoop l ([] :: rest) = lineLoop l rest := by
  simp [lineLoop, lineStep]

theorem take5 {line : Bytes} : (line.take 5 = lit "-----" ∨ line.take 5 = lit "---- ") ↔ EndLike line := by
  have e1 : (lit "-----").length = 5 := by decide
  have e2 : (lit "---- ").length = 5 := by decide
  unfold EndLike
  rw [List.prefix_iff_eq_take, List.prefix_iff_eq_take, e1, e2]
  constructor <;> rintro (h | h) <;> simp [h]

theorem not_endLike {line : Bytes} (h : ∀ c ∈ line, B64 c) : ¬ EndLike line := by
  have e1 : lit "-----" = [45, 45, 45, 45, 45] := by decide
  have e2 : lit "---- " = [45, 45, 45, 45, 32] := by decide
  rintro (⟨t, ht⟩ | ⟨t, ht⟩)
  · exact (h 45 (by rw [← ht, e1]; simp)).2.2.2 rfl
  · exact (h 45 (by rw [← ht, e2]; simp)).2.2.2 rfl

theorem lineStep_body {l : Locals} (hs : l.state ≠ .trash) {line : Bytes} (h0 : line ≠ []) (h : ∀ c ∈ line, B64 c) :
    lineStep l line = .ok (none, { l with state := .body, data := l.data ++ line }) := by
  have hb : bodyLine l line = .ok (none, { l with state := .body, data := l.data ++ line }) := by
    unfold bodyLine
    rw [if_neg (fun hc => not_endLike h (take5.mp hc))]
  unfold lineStep
  rw [if_neg h0]
  cases hst : l.state with
  | trash => exact absurd hst hs
  | headers =>
    simp only
    rw [if_neg, hb]
    intro hc
    rw [List.contains_iff_mem] at hc
    exact (h 58 hc).2.2.1 rfl
  | body => exact hb

theorem lineLoop_body {ls : List Bytes} (h : ∀ x ∈ ls, x ≠ [] ∧ ∀ c ∈ x, B64 c) (l : Locals) (hs : l.state ≠ .trash)
    (rest : List Bytes) :
    ∃ st, st ≠ .trash ∧ lineLoop l (ls ++ rest) = lineLoop { l with state := st, data := l.data ++ ls.flatten } rest := by
  induction ls generalizing l with
  | nil => exact ⟨l.state, hs, by simp⟩
  | cons x ls ih =>
    have hx := h x (by simp)
    obtain ⟨st, h1, h2⟩ := ih (fun y hy => h y (by simp [hy])) { l with state := .body, data := l.data ++ x } (by simp)
    refine ⟨st, h1, ?_⟩
    rw [List.cons_append, lineLoop, lineStep_body hs hx.1 hx.2]
    simp only
    rw [h2]
    simp

theorem lineStep_end {l : Locals} (hs : l.state ≠ .trash) {line : Bytes} (h : EndLike line) (h58 : (58 : UInt8) ∉ line)
    {der : Bytes} (hd : b64decode l.data = .ok der) :
    lineStep l line = .ok (some (l.objectType, l.headers, der), idle l.foundStart true) := by
  have hb : bodyLine l line = .ok (some (l.objectType, l.headers, der), idle l.foundStart true) := by
    unfold bodyLine
    rw [if_pos (take5.mpr h), hd]
    rfl
  have h0 : line ≠ [] := by
    rintro rfl
    rcases h with h | h <;> exact absurd h (by decide)
  unfold lineStep
  rw [if_neg h0]
  cases hst : l.state with
  | trash => exact absurd hst hs
  | headers =>
    simp only
    rw [if_neg (by rw [List.contains_iff_mem]; exact h58), hb]
  | body => exact hb

/-- The lines of a block as `armor` writes it. -/
def blockLines (n : Bytes) (hs : List (Str × Str)) (ls : List Bytes) : List Bytes :=
  [lit "-----BEGIN " ++ n ++ lit "-----"] ++ hs.map headerLine ++ (if hs = [] then [] else [[]]) ++ ls ++
    [lit "-----END " ++ n ++ lit "-----"]

theorem lineLoop_block {name : Str} (hn : ObjectType name) {hs : List (Str × Str)} (hh : ∀ x ∈ hs, HeaderOk x)
    {ds : List (Str × Str)} (hnd : LastValues hs ds) {ls : List Bytes} (hl : ∀ x ∈ ls, x ≠ [] ∧ ∀ c ∈ x, B64 c) {data : Bytes}
    (hd : b64decode ls.flatten = .ok data) (fs fe : Bool) (rest : List Bytes) :
    lineLoop (idle fs fe) (blockLines (ascii name) hs ls ++ rest) =
      ⟨(name, ds, data) :: (lineLoop (idle true true) rest).items, (lineLoop (idle true true) rest).result⟩ := by
  obtain ⟨a0, a1⟩ := objectType_ascii hn
  have hbl : (lit "-----BEGIN " ++ ascii name ++ lit "-----") ≠ [] := by
    have : lit "-----BEGIN " ≠ [] := by decide
    simp [this]
  have hstep : lineStep (idle fs fe) (lit "-----BEGIN " ++ ascii name ++ lit "-----") =
      .ok (none, { (idle fs fe) with objectType := name, foundStart := true, state := .headers }) := by
    unfold lineStep
    rw [if_neg hbl]
    simp only [idle, matchBegin_line a0 a1]
    rw [decodeAscii_ascii (objectType_lt hn)]
    rfl
  have e1 : blockLines (ascii name) hs ls ++ rest = (lit "-----BEGIN " ++ ascii name ++ lit "-----") ::
      (hs.map headerLine ++ ((if hs = [] then [] else [[]]) ++ (ls ++
        ((lit "-----END " ++ ascii name ++ lit "-----") :: rest)))) := by
    simp [blockLines]
  rw [e1, lineLoop, hstep]
  simp only
  rw [lineLoop_headers hh _ rfl]
  have hds : collected [] hs = ds := last_unique (collected_last hs) hnd
  simp only [idle, hds]
  have e2 : ∀ l r, lineLoop l ((if hs = [] then [] else [[]]) ++ r) = lineLoop l r := by
    intro l r
    split
    · rfl
    · exact lineLoop_empty l r
  rw [e2]
  obtain ⟨st, h1, h2⟩ := lineLoop_body hl
    { (idle fs fe) with objectType := name, foundStart := true, state := .headers, headers := ds }
    (by simp) ((lit "-----END " ++ ascii name ++ lit "-----") :: rest)
  refine Eq.trans h2 ?_
  have hend : EndLike (lit "-----END " ++ ascii name ++ lit "-----") := by
    left
    have : lit "-----END " = lit "-----" ++ lit "END " := by decide
    rw [this]; simp [List.append_assoc]
  have h58 : (58 : UInt8) ∉ lit "-----END " ++ ascii name ++ lit "-----" := by
    intro hc
    simp only [List.mem_append] at hc
    rcases hc with (hc | hc) | hc
    · revert hc; decide
    · exact (nameChar_facts _ (a1 _ hc)).2.2.1 rfl
    · revert hc; decide
  have hE := lineStep_end (l := ⟨st, ds, (idle fs fe).data ++ ls.flatten, name, true, fe⟩) h1 hend h58
    (der := data) (by simpa [idle] using hd)
  rw [lineLoop]
  erw [hE]
  simp [idle]

theorem flatMap_join (ls : List Bytes) : (ls.flatMap fun l => l ++ lit "\n") = ls.flatMap fun l => l ++ [10] := rfl

theorem pemText_lines {name : Str} {hs : List (Str × Str)} {ls : List Bytes} {pem : Bytes} (h : PemText name hs ls pem) :
    pem = (blockLines (ascii name) hs ls).flatMap fun l => l ++ [10] := by
  rw [h]
  have e1 : lit "-----\n" = lit "-----" ++ [10] := by decide
  have e2 : lit "\n" = [10] := by decide
  rw [e1, e2]
  unfold blockLines
  simp only [List.flatMap_append, List.flatMap_cons, List.flatMap_nil, List.append_nil, List.flatMap_map, List.append_assoc,
    headerLine_eq]
  split <;> simp

/-- `armor` writes a PEM text whose lines are the base64 text in pieces of at most 64 characters. -/
theorem armor_ok {name : Str} (hn : ObjectType (upper name)) {hs : List (Str × Str)} (hh : ∀ x ∈ hs, HeaderOk x) (data : Bytes) :
    ∃ pem ls, armor name data hs = .ok pem ∧ PemText (upper name) hs ls pem ∧ ls.flatten = b64encode data ∧
      ∀ l ∈ ls, l ≠ [] ∧ l.length ≤ 64 := by
  obtain ⟨ls, h1, h2, h3⟩ := bodyLoop_ok (b64encode data) ((b64encode data).length + 1) 0 [] (by omega) (by omega)
  have hhd : headerBlock hs = .ok ((hs.flatMap fun x => headerLine x ++ [10]) ++ if hs = [] then [] else [10]) := by
    cases hs with
    | nil => rfl
    | cons x hs =>
      unfold headerBlock
      rw [headerLines_ok hh]
      rfl
  refine ⟨_, ls, ?_, rfl, by simpa using h2, h1⟩
  unfold armor
  rw [encodeAscii_ok (objectType_lt hn), hhd]
  have e1 : lit "-----\n" = lit "-----" ++ [10] := by decide
  have e2 : lit "\n" = [10] := by decide
  simp only [bind, Except.bind, h3, e1, e2, headerLine_eq, List.nil_append, List.append_assoc]

theorem block_noBreak {name : Str} (hn : ObjectType name) {hs : List (Str × Str)} (hh : ∀ x ∈ hs, HeaderOk x)
    {ls : List Bytes} (hl : ∀ x ∈ ls, ∀ c ∈ x, B64 c) : ∀ l ∈ blockLines (ascii name) hs ls, NoBreak l := by
  obtain ⟨_, a1⟩ := objectType_ascii hn
  have hw : ∀ p : Bytes, NoBreak p → NoBreak (p ++ ascii name ++ lit "-----") := by
    intro p hp c hc
    simp only [List.mem_append] at hc
    rcases hc with (hc | hc) | hc
    · exact hp c hc
    · exact ⟨(nameChar_facts _ (a1 _ hc)).1, (nameChar_facts _ (a1 _ hc)).2.1⟩
    · have : ∀ c ∈ lit "-----", c ≠ 10 ∧ c ≠ 13 := by decide
      exact this c hc
  intro l hm
  simp only [blockLines, List.mem_append, List.mem_singleton, List.mem_map] at hm
  rcases hm with (((rfl | ⟨x, hx, rfl⟩) | hm) | hm) | rfl
  · exact hw _ (by unfold NoBreak; decide)
  · exact headerLine_noBreak (hh x hx)
  · split at hm
    · cases hm
    · rw [List.mem_singleton] at hm; subst hm; intro c hc; cases hc
  · exact fun c hc => ⟨(hl l hm c hc).1, (hl l hm c hc).2.1⟩
  · exact hw _ (by unfold NoBreak; decide)

theorem contains_append (sub a b : Bytes) : contains sub (a ++ (sub ++ b)) = true := by
  induction a with
  | nil =>
    cases h : sub ++ b with
    | nil =>
      have := List.append_eq_nil_iff.mp h
      simp [this.1, contains]
    | cons c cs =>
      rw [List.nil_append, contains, ← h]
      simp
  | cons c a ih => rw [List.cons_append, contains, ih, Bool.or_true]

end Asn1.Pem
