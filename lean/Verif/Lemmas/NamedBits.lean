import Verif.Lemmas.StrRead

/-! # Lemmas on named bit lists -/

namespace Asn1
open Spec

theorem BitMap.get_iff {m : BitMap} (hk : (m.map Prod.fst).Nodup) (n : Nat) (s : String) : m.get n = some s ↔ (n, s) ∈ m := by
  unfold BitMap.get
  constructor
  · intro h
    rw [Option.map_eq_some_iff] at h
    obtain ⟨a, h1, h2⟩ := h
    have h3 := List.find?_some h1
    have h4 := List.mem_of_find?_eq_some h1
    simp only [beq_iff_eq] at h3
    subst h2 h3
    exact h4
  · intro h
    rw [find?_eq_of_nodup m hk h]; rfl

theorem BitMap.lt_size {m : BitMap} {n : Nat} {s : String} (h : (n, s) ∈ m) : n < m.size := by
  unfold BitMap.size
  have : ∀ (l : List Nat) (a x : Nat), (x ∈ l ∨ x ≤ a) → x ≤ l.foldl max a := by
    intro l
    induction l with
    | nil => intro a x hx; rcases hx with hx | hx; · simp at hx
             · exact hx
    | cons y ys ih =>
      intro a x hx
      rw [List.foldl_cons]
      apply ih
      rcases hx with hx | hx
      · rcases List.mem_cons.mp hx with rfl | hx
        · right; omega
        · left; exact hx
      · right; omega
  have := this (m.map Prod.fst) 0 n (Or.inl (List.mem_map.mpr ⟨_, h, rfl⟩))
  omega

theorem mem_bitNames (m : BitMap) (k : BitKey) : ∀ (bits : List Bool) (i : Nat) (acc : List BitKey),
    k ∈ bitNames m i bits acc ↔ k ∈ acc ∨ ∃ j, bits[j]? = some true ∧ k = m.key (i + j) := by
  intro bits
  induction bits with
  | nil => intro i acc; simp [bitNames]
  | cons b bs ih =>
    intro i acc
    rw [bitNames, ih]
    constructor
    · rintro (h | ⟨j, h1, h2⟩)
      · cases b with
        | false => exact Or.inl (by simpa using h)
        | true =>
          simp only [if_true] at h
          split at h
          · exact Or.inl h
          · rcases List.mem_append.mp h with h | h
            · exact Or.inl h
            · exact Or.inr ⟨0, rfl, by simpa using h⟩
      · exact Or.inr ⟨j + 1, by simpa using h1, by rw [h2]; congr 1; omega⟩
    · rintro (h | ⟨j, h1, h2⟩)
      · left
        split
        · split
          · exact h
          · exact List.mem_append_left _ h
        · exact h
      · cases j with
        | zero =>
          simp only [List.getElem?_cons_zero, Option.some.injEq] at h1
          subst h1
          left
          simp only [if_true]
          rw [Nat.add_zero] at h2
          split
          · next hm => rw [h2]; exact hm
          · rw [h2]; simp
        | succ j =>
          right
          exact ⟨j, by simpa using h1, by rw [h2]; congr 1; omega⟩

theorem getElem?_bitsOfNames {m : BitMap} (hk : (m.map Prod.fst).Nodup) (value : List BitKey) (i : Nat) :
    (NamedBits.bitsOfNames m value)[i]? = some true ↔ ∃ s, (i, s) ∈ m ∧ BitKey.name s ∈ value := by
  unfold NamedBits.bitsOfNames
  rw [List.getElem?_map, Option.map_eq_some_iff]
  constructor
  · rintro ⟨j, h1, h2⟩
    have hj : j = i := by
      rw [List.getElem?_range] at h1
      · injection h1 with h1; exact h1.symm
      · by_contra hlt
        rw [List.getElem?_eq_none (by simpa using hlt)] at h1
        cases h1
    subst hj
    cases hg : m.get j with
    | none => rw [hg] at h2; cases h2
    | some s =>
      rw [hg] at h2
      exact ⟨s, (BitMap.get_iff hk j s).mp hg, by simpa using h2⟩
  · rintro ⟨s, h1, h2⟩
    refine ⟨i, List.getElem?_range (BitMap.lt_size h1), ?_⟩
    rw [(BitMap.get_iff hk i s).mpr h1]
    simpa using h2

theorem rstrip0_spec (bits : List Bool) : ∃ k, bits = rstrip0 bits ++ List.replicate k false ∧ (rstrip0 bits).getLast? ≠ some false := by
  unfold rstrip0
  refine ⟨(bits.reverse.takeWhile (· == false)).length, ?_, ?_⟩
  · have h1 := List.takeWhile_append_dropWhile (p := (· == false)) (l := bits.reverse)
    have h2 : bits.reverse.takeWhile (· == false) = List.replicate (bits.reverse.takeWhile (· == false)).length false := by
      apply List.eq_replicate_iff.mpr
      refine ⟨rfl, ?_⟩
      intro b hb
      have := List.all_eq_true.mp (List.all_takeWhile (p := (· == false)) (l := bits.reverse)) b hb
      simpa using this
    have := congrArg List.reverse h1
    rw [List.reverse_append, List.reverse_reverse] at this
    rw [h2, List.reverse_replicate] at this
    exact this.symm
  · rw [List.getLast?_reverse]
    intro h
    have := List.head?_dropWhile_not (p := (· == false)) bits.reverse
    rw [h] at this
    simp at this

theorem getElem?_rstrip0 (bits : List Bool) (i : Nat) : (rstrip0 bits)[i]? = some true ↔ bits[i]? = some true := by
  obtain ⟨k, h1, h2⟩ := rstrip0_spec bits
  conv_rhs => rw [h1]
  rw [List.getElem?_append]
  split
  · rfl
  · next h =>
    rw [List.getElem?_eq_none (by omega), List.getElem?_replicate]
    split <;> simp

theorem length_bitsOfNames (m : BitMap) (v : List BitKey) : (NamedBits.bitsOfNames m v).length = m.size := by
  simp [NamedBits.bitsOfNames]

theorem NamedBits.set_spec {m : BitMap} (hk : (m.map Prod.fst).Nodup) (o : BitObj (List BitKey)) (value : List BitKey) :
    ∃ c u bits, NamedBits.set m o value = .ok { toObj := strPut o.toObj value c, unused := u } ∧ BitContents bits c ∧
      bits.getLast? ≠ some false ∧ ∀ i, bits[i]? = some true ↔ ∃ s, (i, s) ∈ m ∧ BitKey.name s ∈ value := by
  obtain ⟨c, extra, h1, h2, _, _⟩ := bitsContents_spec (rstrip0 (NamedBits.bitsOfNames m value))
  obtain ⟨k, _, h4⟩ := rstrip0_spec (NamedBits.bitsOfNames m value)
  refine ⟨c, List.replicate extra false, _, ?_, h2, h4, ?_⟩
  · unfold NamedBits.set NamedBits.setBits
    rw [length_bitsOfNames, if_neg (by omega), h1]
    rfl
  · intro i
    rw [getElem?_rstrip0, getElem?_bitsOfNames hk]

/-- Names of the bits of a name set. -/
theorem names_of_bits {m : BitMap} (hk : (m.map Prod.fst).Nodup) {value : List BitKey} {bits : List Bool}
    (hv : ∀ k ∈ value, ∃ n s, k = .name s ∧ (n, s) ∈ m)
    (hb : ∀ i, bits[i]? = some true ↔ ∃ s, (i, s) ∈ m ∧ BitKey.name s ∈ value) (k : BitKey) :
    k ∈ bitNames m 0 bits [] ↔ k ∈ value := by
  rw [mem_bitNames]
  simp only [List.not_mem_nil, false_or, Nat.zero_add]
  constructor
  · rintro ⟨j, h1, rfl⟩
    obtain ⟨s, h2, h3⟩ := (hb j).mp h1
    unfold BitMap.key
    rw [(BitMap.get_iff hk j s).mpr h2]
    exact h3
  · intro h
    obtain ⟨n, s, rfl, hm⟩ := hv k h
    refine ⟨n, (hb n).mpr ⟨s, hm, h⟩, ?_⟩
    unfold BitMap.key
    rw [(BitMap.get_iff hk n s).mpr hm]

end Asn1
