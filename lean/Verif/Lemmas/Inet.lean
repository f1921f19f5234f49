import Verif.Spec.Inet
import Verif.Lemmas.PyStr
import Verif.Lemmas.Num
import Mathlib.Data.List.Forall2

/-! # Lemmas for `_inet.py` -/

namespace Asn1
open Spec

/-! ### Hexadecimal text -/

theorem hexChar_facts : ∀ d < 16, hexVal (hexChar d) = some d ∧ hexChar d ≠ '_' ∧ hexChar d ≠ '-' ∧ hexChar d ≠ '+' ∧ hexChar d ≠ ':' ∧
    hexChar d ≠ 'x' ∧ hexChar d ≠ 'X' ∧ pyIsSpace (hexChar d) = false := by decide

theorem mem_pyHexNat (n : Nat) : ∀ c ∈ pyHexNat n, ∃ d, d < 16 ∧ c = hexChar d := by
  induction n using Nat.strongRecOn with
  | _ n ih =>
    intro c hc
    rw [pyHexNat] at hc
    split at hc
    · simp only [List.mem_singleton] at hc; exact ⟨n, by omega, hc⟩
    · rcases List.mem_append.mp hc with h | h
      · exact ih (n / 16) (by omega) c h
      · simp only [List.mem_singleton] at h; exact ⟨n % 16, by omega, h⟩

theorem pyHexNat_ne_nil (n : Nat) : pyHexNat n ≠ [] := by
  rw [pyHexNat]; split <;> simp

theorem pyHexNat_no_colon (n : Nat) : ∀ c ∈ pyHexNat n, c ≠ ':' := by
  intro c hc
  obtain ⟨d, hd, rfl⟩ := mem_pyHexNat n c hc
  exact (hexChar_facts d hd).2.2.2.2.1

theorem hexGo_append (a : Str) (d : Nat) (hd : d < 16) : ∀ acc, (∀ c ∈ a, c ≠ '_') →
    hexGo acc (a ++ [hexChar d]) = (hexGo acc a).bind (fun v => some (v * 16 + d)) := by
  have hf := hexChar_facts d hd
  induction a with
  | nil => intro acc _; simp [hexGo, hf.2.1, hf.1]
  | cons x xs ih =>
    intro acc h
    have hx : x ≠ '_' := h x (by simp)
    have e : ∀ ys, hexGo acc (x :: ys) = (hexVal x).bind (fun v => hexGo (acc * 16 + v) ys) := by
      intro ys
      cases ys <;> simp only [hexGo, if_neg hx] <;> cases hexVal x <;> rfl
    rw [List.cons_append, e, e]
    cases hexVal x with
    | none => rfl
    | some v => exact ih _ (fun c hc => h c (by simp [hc]))

theorem hexDigits_pyHexNat (n : Nat) : hexDigits (pyHexNat n) = some n := by
  induction n using Nat.strongRecOn with
  | _ n ih =>
    rw [pyHexNat]
    split
    · simp [hexDigits, (hexChar_facts n (by omega)).1, hexGo]
    · have h := ih (n / 16) (by omega)
      cases hp : pyHexNat (n / 16) with
      | nil => exact absurd hp (pyHexNat_ne_nil _)
      | cons c cs =>
        rw [hp] at h
        simp only [hexDigits, List.cons_append] at h ⊢
        cases hv : hexVal c with
        | none => rw [hv] at h; cases h
        | some v =>
          rw [hv] at h
          simp only at h ⊢
          rw [hexGo_append cs (n % 16) (by omega) v, h]
          · simp only [Option.bind_some, Option.some.injEq]; omega
          · intro x hx
            obtain ⟨d, hd, rfl⟩ := mem_pyHexNat (n / 16) x (by rw [hp]; simp [hx])
            exact (hexChar_facts d hd).2.1

/-- `int(hex(n)[2:], 16) == n` -/
theorem pyIntHex_pyHexNat (n : Nat) : pyIntHex (pyHexNat n) = .ok (n : Int) := by
  have hs : ∀ c ∈ pyHexNat n, pyIsSpace c = false := by
    intro c hc
    obtain ⟨d, hd, rfl⟩ := mem_pyHexNat n c hc
    exact (hexChar_facts d hd).2.2.2.2.2.2.2
  have hall : ∀ c ∈ pyHexNat n, c ≠ '-' ∧ c ≠ '+' ∧ c ≠ 'x' ∧ c ≠ 'X' := by
    intro c hc
    obtain ⟨d, hd, rfl⟩ := mem_pyHexNat n c hc
    have := hexChar_facts d hd
    exact ⟨this.2.2.1, this.2.2.2.1, this.2.2.2.2.2.1, this.2.2.2.2.2.2.1⟩
  have hd := hexDigits_pyHexNat n
  unfold pyIntHex
  rw [pyStrip_eq_self _ hs]
  have hu : hexUnsigned (pyHexNat n) = some n := by
    unfold hexUnsigned
    split
    · next h => exact absurd rfl (hall 'x' (by rw [h]; simp)).2.2.1
    · next h => exact absurd rfl (hall 'X' (by rw [h]; simp)).2.2.2
    · next h => exact absurd rfl (hall 'x' (by rw [h]; simp)).2.2.1
    · next h => exact absurd rfl (hall 'X' (by rw [h]; simp)).2.2.2
    · exact hd
  split
  · next h => exact absurd rfl (hall '-' (by rw [h]; simp)).1
  · next h => exact absurd rfl (hall '+' (by rw [h]; simp)).2.1
  · rw [hu]

theorem pyIntHex_error {s : Str} {e : PyErr} (h : pyIntHex s = .error e) : e = .valueError := by
  unfold pyIntHex at h
  split at h <;> split at h <;> first | (cases h; done) | (injection h with h; exact h.symm)

/-! ### Splitting at `::` -/

abbrev dc : Str := [':', ':']

theorem splitDC_other {x : Char} (hx : x ≠ ':') (r : Str) : pySplitStr dc (x :: r) = consHead x (pySplitStr dc r) := by
  unfold pySplitStr
  rw [pySplitStrGo, if_neg]
  simp [List.isPrefixOf, Ne.symm hx]

theorem splitDC_single {y : Char} (hy : y ≠ ':') (r : Str) :
    pySplitStr dc (':' :: y :: r) = consHead ':' (pySplitStr dc (y :: r)) := by
  unfold pySplitStr
  rw [pySplitStrGo, if_neg]
  simp [List.isPrefixOf, Ne.symm hy]

theorem splitDC_double (r : Str) : pySplitStr dc (':' :: ':' :: r) = [] :: pySplitStr dc r := by
  unfold pySplitStr
  rw [pySplitStrGo, if_pos (by simp [List.isPrefixOf])]
  rfl

/-- Non-empty parts without colons. -/
def Parts (ps : List Str) : Prop := ∀ p ∈ ps, p ≠ [] ∧ ∀ c ∈ p, c ≠ ':'

theorem splitDC_word (w : Str) (hw : ∀ c ∈ w, c ≠ ':') (r : Str) (t : Str) (ts : List Str) (h : pySplitStr dc r = t :: ts) :
    pySplitStr dc (w ++ r) = (w ++ t) :: ts := by
  induction w with
  | nil => exact h
  | cons x xs ih =>
    rw [List.cons_append, splitDC_other (hw x (by simp)), ih (fun c hc => hw c (by simp [hc]))]
    rfl

theorem splitDC_join : ∀ (ps : List Str), Parts ps → ∀ (r t : Str) (ts : List Str), (r = [] ∨ ∃ r', r = ':' :: ':' :: r') →
    pySplitStr dc r = t :: ts → pySplitStr dc (pyJoin [':'] ps ++ r) = (pyJoin [':'] ps ++ t) :: ts
  | [], _, r, t, ts, _, h => h
  | [p], hp, r, t, ts, _, h => by
    rw [pyJoin]; exact splitDC_word p (hp p (by simp)).2 r t ts h
  | p :: q :: qs, hp, r, t, ts, hr, h => by
    have ih := splitDC_join (q :: qs) (fun x hx => hp x (by simp [hx])) r t ts hr h
    rw [pyJoin]
    obtain ⟨hq1, hq2⟩ := hp q (by simp)
    have hstart : ∃ y rest, pyJoin [':'] (q :: qs) ++ r = y :: rest ∧ y ≠ ':' := by
      cases q with
      | nil => exact absurd rfl hq1
      | cons y ys =>
        cases qs with
        | nil => exact ⟨y, ys ++ r, by simp [pyJoin], hq2 y (by simp)⟩
        | cons z zs => exact ⟨y, ys ++ ':' :: pyJoin [':'] (z :: zs) ++ r, by simp [pyJoin], hq2 y (by simp)⟩
    obtain ⟨y, rest, he, hy⟩ := hstart
    have h2 : pySplitStr dc (':' :: (pyJoin [':'] (q :: qs) ++ r)) = (':' :: (pyJoin [':'] (q :: qs) ++ t)) :: ts := by
      rw [he, splitDC_single hy, ← he, ih]
      rfl
    have := splitDC_word p (hp p (by simp)).2 (':' :: (pyJoin [':'] (q :: qs) ++ r)) _ ts h2
    simpa using this

theorem splitDC_nil : pySplitStr dc [] = [[]] := rfl

theorem splitDC_one (ps : List Str) (hp : Parts ps) : pySplitStr dc (pyJoin [':'] ps) = [pyJoin [':'] ps] := by
  have := splitDC_join ps hp [] [] [] (.inl rfl) rfl
  simpa using this

theorem splitDC_two (ps qs : List Str) (hp : Parts ps) (hq : Parts qs) :
    pySplitStr dc (pyJoin [':'] ps ++ dc ++ pyJoin [':'] qs) = [pyJoin [':'] ps, pyJoin [':'] qs] := by
  have h : pySplitStr dc (dc ++ pyJoin [':'] qs) = [] :: [pyJoin [':'] qs] := by
    show pySplitStr dc (':' :: ':' :: pyJoin [':'] qs) = _
    rw [splitDC_double, splitDC_one qs hq]
  have := splitDC_join ps hp (dc ++ pyJoin [':'] qs) [] _ (.inr ⟨_, rfl⟩) h
  simpa [List.append_assoc] using this

theorem hexed_parts (gs : List Nat) : Parts (gs.map pyHexNat) := by
  intro p hp
  obtain ⟨g, _, rfl⟩ := List.mem_map.mp hp
  exact ⟨pyHexNat_ne_nil g, pyHexNat_no_colon g⟩

/-! ### Groups -/

theorem packH_eq (gs : List Nat) : packH gs = gs.flatMap fun g => [UInt8.ofNat (g / 256), UInt8.ofNat (g % 256)] := by
  induction gs with
  | nil => rfl
  | cons g gs ih => simp [packH, ih]

theorem unpackH_packH (gs : List Nat) (h : ∀ g ∈ gs, g < 65536) : unpackH (packH gs) = gs := by
  induction gs with
  | nil => rfl
  | cons g gs ih =>
    have hg := h g (by simp)
    rw [packH, unpackH, ih (fun x hx => h x (by simp [hx]))]
    rw [UInt8.toNat_ofNat_of_lt' (by simp [UInt8.size]; omega), UInt8.toNat_ofNat_of_lt' (by simp [UInt8.size]; omega)]
    congr 1
    omega

theorem unpackH_spec : ∀ (b : Bytes), b.length % 2 = 0 → packH (unpackH b) = b ∧ (unpackH b).length = b.length / 2 ∧ ∀ g ∈ unpackH b, g < 65536
  | [], _ => by simp [unpackH, packH]
  | [_], h => by simp at h
  | x :: y :: r, h => by
    obtain ⟨h1, h2, h3⟩ := unpackH_spec r (by simp at h; omega)
    refine ⟨?_, ?_, ?_⟩
    · rw [unpackH, packH, h1]
      have hx := x.toNat_lt
      have hy := y.toNat_lt
      have e1 : (x.toNat * 256 + y.toNat) / 256 = x.toNat := by omega
      have e2 : (x.toNat * 256 + y.toNat) % 256 = y.toNat := by omega
      rw [e1, e2]; simp
    · rw [unpackH, List.length_cons, h2]; simp; omega
    · intro g hg
      rw [unpackH] at hg
      have hx := x.toNat_lt
      have hy := y.toNat_lt
      rcases List.mem_cons.mp hg with rfl | hg
      · omega
      · exact h3 g hg

/-! ### The run of zeros -/

/-- Bounded form of `ZeroRun` on the pattern of zeros. -/
def runB (zs : List Bool) (i k : Nat) : Bool := (List.range k).all fun t => zs[i + t]? == some true

def runsOK (zs : List Bool) : Bool :=
  let st := zeroRuns zs
  let best := fun i k => decide (2 ≤ k) && runB zs i k && (List.range 9).all fun j => (List.range 10).all fun m =>
    !runB zs j m || (decide (m ≤ k) && (decide (m ≠ k) || decide (i ≤ j)))
  if st.longest < 2 then (List.range 9).all fun j => !runB zs j 2
  else match st.runs.find? (fun e => e.1 == st.longest) with
    | none => false
    | some e => best e.2 st.longest

theorem runsOK_all : ∀ a b c d e f g h : Bool, runsOK [a, b, c, d, e, f, g, h] = true := by decide +kernel

theorem runB_iff (gs : List Nat) (i k : Nat) : runB (gs.map (· == 0)) i k = true ↔ ZeroRun gs i k := by
  unfold runB ZeroRun
  simp only [List.all_eq_true, List.mem_range, List.getElem?_map]
  constructor
  · intro h t ht
    have := h t ht
    cases hg : gs[i + t]? with
    | none => rw [hg] at this; simp at this
    | some g => rw [hg] at this; simpa using this
  · intro h t ht
    rw [h t ht]; simp

theorem zeroRun_bound {gs : List Nat} (hl : gs.length = 8) {i k : Nat} (h : ZeroRun gs i k) (hk : 0 < k) : i + k ≤ 8 := by
  have := h (k - 1) (by omega)
  have h2 := (List.getElem?_eq_some_iff.mp this).1
  omega

/-- The loop finds the first longest run. -/
theorem zeroRuns_spec (gs : List Nat) (hl : gs.length = 8) :
    ((zeroRuns (gs.map (· == 0))).longest < 2 ∧ ∀ i k, ¬ FirstLongest gs i k) ∨
    ∃ e, 2 ≤ (zeroRuns (gs.map (· == 0))).longest ∧
      (zeroRuns (gs.map (· == 0))).runs.find? (fun e => e.1 == (zeroRuns (gs.map (· == 0))).longest) = some e ∧
      FirstLongest gs e.2 (zeroRuns (gs.map (· == 0))).longest := by
  have hok : runsOK (gs.map (· == 0)) = true := by
    match gs, hl with
    | [a, b, c, d, e, f, g, h], _ => exact runsOK_all ..
  unfold runsOK at hok
  simp only at hok
  split at hok
  · next hlt =>
    left
    refine ⟨hlt, fun i k hfl => ?_⟩
    have h2 : ZeroRun gs i 2 := fun t ht => hfl.2.1 t (by have := hfl.1; omega)
    have hb := zeroRun_bound hl h2 (by decide)
    simp only [List.all_eq_true, List.mem_range] at hok
    have := hok i (by omega)
    rw [(runB_iff gs i 2).mpr h2] at this
    cases this
  · next hge =>
    right
    split at hok
    · cases hok
    · next e he =>
      refine ⟨e, by omega, he, ?_⟩
      simp only [Bool.and_eq_true, decide_eq_true_eq, List.all_eq_true, List.mem_range, Bool.or_eq_true] at hok
      obtain ⟨⟨h1, h2⟩, h3⟩ := hok
      refine ⟨h1, (runB_iff gs _ _).mp h2, fun j m hz => ?_⟩
      rcases Nat.eq_zero_or_pos m with rfl | hm
      · exact ⟨by omega, fun h => by omega⟩
      · have hb := zeroRun_bound hl hz hm
        rcases h3 j (by omega) m (by omega) with h | h
        · rw [(runB_iff gs j m).mpr hz] at h; cases h
        · exact ⟨h.1, fun hmk => h.2.resolve_left (fun hh => hh hmk)⟩

theorem firstLongest_unique {gs : List Nat} {i k i' k' : Nat} (h : FirstLongest gs i k) (h' : FirstLongest gs i' k') : i = i' ∧ k = k' := by
  have a := h.2.2 _ _ h'.2.1
  have b := h'.2.2 _ _ h.2.1
  have hk : k = k' := by omega
  subst hk
  have := a.2 rfl
  have := b.2 rfl
  omega

/-! ### Conversion of the parts -/

theorem partsLoop_map {conv : Str → Py Int} {limit : Int} (f : Nat → Str) (hf : ∀ n, conv (f n) = .ok (n : Int)) : ∀ (ns acc : List Nat),
    (∀ n ∈ ns, (n : Int) ≤ limit) → partsLoop conv limit (ns.map f) acc = .ok (acc ++ ns, false)
  | [], acc, _ => by simp [partsLoop]
  | n :: ns, acc, h => by
    have h1 := h n (by simp)
    simp only [List.map_cons, partsLoop, hf, bind, Except.bind]
    rw [if_neg (by omega), partsLoop_map f hf ns _ (fun m hm => h m (by simp [hm]))]
    simp

theorem partsLoop_error {conv : Str → Py Int} (hc : ∀ s e, conv s = .error e → e = .valueError) {limit : Int} : ∀ {ps : List Str} {acc : List Nat} {e : PyErr},
    partsLoop conv limit ps acc = .error e → e = .valueError
  | [], _, _, h => by cases h
  | p :: ps, acc, e, h => by
    simp only [partsLoop, bind, Except.bind] at h
    split at h
    · next he => injection h with h; subst h; exact hc _ _ he
    · split at h
      · cases h
      · exact partsLoop_error hc h

theorem partsLoop_ok {conv : Str → Py Int} {limit : Int} : ∀ {ps : List Str} {acc ns : List Nat},
    partsLoop conv limit ps acc = .ok (ns, false) ↔
      ∃ ms, ns = acc ++ ms ∧ List.Forall₂ (fun p (m : Nat) => conv p = .ok (m : Int) ∧ (m : Int) ≤ limit) ps ms
  | [], acc, ns => by
    simp only [partsLoop, Except.ok.injEq, Prod.mk.injEq, and_true, List.forall₂_nil_left_iff]
    constructor
    · rintro rfl; exact ⟨[], by simp, rfl⟩
    · rintro ⟨_, h, rfl⟩; simp [h]
  | p :: ps, acc, ns => by
    simp only [partsLoop, bind, Except.bind]
    cases hc : conv p with
    | error e =>
      simp only
      constructor
      · intro h; cases h
      · rintro ⟨ms, _, h⟩
        cases h with
        | cons h _ => rw [hc] at h; cases h.1
    | ok n =>
      simp only
      by_cases hn : n > limit ∨ n < 0
      · rw [if_pos hn]
        constructor
        · intro h; injection h with h; injection h with _ h; cases h
        · rintro ⟨ms, _, h⟩
          cases h with
          | cons h _ =>
            rw [hc] at h
            obtain ⟨h1, h2⟩ := h
            injection h1 with h1
            omega
      · rw [if_neg hn, partsLoop_ok]
        constructor
        · rintro ⟨ms, rfl, h⟩
          refine ⟨n.toNat :: ms, by simp, .cons ⟨?_, ?_⟩ h⟩
          · rw [hc]; congr 1; omega
          · omega
        · rintro ⟨ms, rfl, h⟩
          cases h with
          | @cons _ m _ ms h1 h2 =>
            rw [hc] at h1
            obtain ⟨h1, _⟩ := h1
            injection h1 with h1
            exact ⟨ms, by simp [h1], h2⟩

end Asn1
