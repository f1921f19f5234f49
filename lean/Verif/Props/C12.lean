import Verif.Lemmas.NamedBits

/-!
# C12 — named-bit BIT STRINGs behave as sets of names

`m` is the class's name map, a list of (bit number, name) with distinct bit numbers (a Python dict).
A Python set of names is a list here; only membership is observed.
-/

namespace Asn1.Props
open Asn1 Spec

/-- The members of `v` are names of the map. -/
def Named (m : BitMap) (v : List BitKey) : Prop := ∀ k ∈ v, ∃ n s, k = .name s ∧ (n, s) ∈ m

/-- DER contents of a set of names: bit `i` is set exactly if its name is in the set, and no trailing zero bit. -/
def NameContents (m : BitMap) (v : List BitKey) (c : Bytes) : Prop :=
  ∃ bits, BitContents bits c ∧ bits.getLast? ≠ some false ∧
    ∀ i, bits[i]? = some true ↔ ∃ s, (i, s) ∈ m ∧ BitKey.name s ∈ v

/-- Setting a set of names: `native` is that set, trailing zero bits are omitted. -/
theorem C12_set_native (m : BitMap) (hk : (m.map Prod.fst).Nodup) (p : BitObj (List BitKey)) (v : List BitKey) :
    ∃ o c, NamedBits.set m p v = .ok o ∧ NamedBits.native m o = .ok (v, o) ∧ o.contents = some c ∧ NameContents m v c := by
  obtain ⟨c, u, bits, h1, h2, h3, h4⟩ := NamedBits.set_spec hk p v
  exact ⟨_, c, h1, rfl, rfl, bits, h2, h3, h4⟩

/-- Dump and load, under any tagging, gives the same set. -/
theorem C12_dump_load (m : BitMap) (hk : (m.map Prod.fst).Nodup) (p : Obj (List BitKey)) (o o1 : BitObj (List BitKey))
    (v : List BitKey) (hv : Named m v) (bytes : Bytes) (strict : Bool) (hp : Blank p)
    (hs : NamedBits.set m { toObj := p } v = .ok o) (hd : NamedBits.dump m o = .ok (bytes, o1)) (hf : Fits bytes) :
    ∃ o2 o3 v', NamedBits.load p bytes strict = .ok o2 ∧ NamedBits.native m o2 = .ok (v', o3) ∧ ∀ k, k ∈ v' ↔ k ∈ v := by
  obtain ⟨c, u, bits, h1, h2, h3, h4⟩ := NamedBits.set_spec hk { toObj := p } v
  rw [h1] at hs
  injection hs with hs
  subst hs
  rw [NamedBits.dump_fresh rfl] at hd
  obtain ⟨⟨b, o'⟩, ha, hb⟩ := bind_dump_ok hd
  injection hb with hb _
  subst hb
  rw [strPut_blank hp] at ha
  obtain ⟨h, _, hl⟩ := load_dump_put (bad := []) hp strict ha hf
  have hind : p.indefinite = false := by rw [hp.isProto]; rfl
  obtain ⟨w, h5⟩ := NamedBits.native_of m { toObj := p.loaded h c } c rfl rfl bits (by
    change BitsMean p.indefinite c bits
    rw [hind]
    exact BitContents.leaf h2)
  refine ⟨_, _, _, ?_, h5, names_of_bits hk hv h4⟩
  unfold NamedBits.load
  rw [hl]
  rfl

/-- `value[name]` is `True` exactly for members, for every name of the map; other names raise `ValueError`. -/
theorem C12_getitem (m : BitMap) (o o' : BitObj (List BitKey)) (v : List BitKey) (h : NamedBits.native m o = .ok (v, o'))
    (s : String) :
    (s ∈ m.map Prod.snd → NamedBits.getItem m o (.name s) = .ok (decide (BitKey.name s ∈ v), o')) ∧
    (s ∉ m.map Prod.snd → NamedBits.getItem m o (.name s) = .error .valueError) := by
  constructor
  · intro hs
    unfold NamedBits.getItem NamedBits.resolve
    simp only [hs, if_true, bind, Except.bind, h]
    rfl
  · intro hs
    unfold NamedBits.getItem NamedBits.resolve
    simp only [hs, if_false, bind, Except.bind]

/-- One update. The new encoding is the DER encoding of the updated set. -/
theorem C12_setitem (m : BitMap) (hk : (m.map Prod.fst).Nodup) (o o' : BitObj (List BitKey)) (v : List BitKey)
    (h : NamedBits.native m o = .ok (v, o')) (s : String) (b : Bool) :
    (s ∈ m.map Prod.snd → ∃ o2 v2 c, NamedBits.setItem m o (.name s) b = .ok o2 ∧ NamedBits.native m o2 = .ok (v2, o2) ∧
      o2.contents = some c ∧ NameContents m v2 c ∧ o2.header = none ∧
      ∀ k, k ∈ v2 ↔ if k = .name s then b = true else k ∈ v) ∧
    (s ∉ m.map Prod.snd → NamedBits.setItem m o (.name s) b = .error .valueError) := by
  constructor
  · intro hs
    unfold NamedBits.setItem NamedBits.resolve
    simp only [hs, if_true, bind, Except.bind, h]
    obtain ⟨c, u, bits, h1, h2, h3, h4⟩ := NamedBits.set_spec hk o'
      (if b = true then (if BitKey.name s ∈ v then v else v ++ [.name s]) else v.filter (· ≠ .name s))
    refine ⟨_, _, c, h1, rfl, rfl, ⟨bits, h2, h3, h4⟩, rfl, ?_⟩
    intro k
    cases b with
    | true =>
      simp only [if_true]
      split
      · next hm =>
        split
        · next hk => rw [hk]; simp [hm]
        · rfl
      · rw [List.mem_append, List.mem_singleton]
        split
        · next hk => simp [hk]
        · next hk => simp [hk]
    | false =>
      simp only [Bool.false_eq_true, if_false, List.mem_filter, decide_eq_true_eq]
      split
      · next hk => simp [hk]
      · next hk => simp [hk]
  · intro hs
    unfold NamedBits.setItem NamedBits.resolve
    simp only [hs, if_false, bind, Except.bind]

/-- A sequence of assignments `value[name] = flag`. -/
def applyUpdates (m : BitMap) : List (String × Bool) → BitObj (List BitKey) → Py (BitObj (List BitKey))
  | [], o => .ok o
  | (s, b) :: us, o => do
    let o ← NamedBits.setItem m o (.name s) b
    applyUpdates m us o

/-- What the last assignment to `t` says, or the initial membership. -/
def lastSaid (t : String) : List (String × Bool) → Bool → Bool
  | [], init => init
  | (s, b) :: us, init => lastSaid t us (if s = t then b else init)

/-- Any sequence of assignments to names of the map: afterwards every name is a member exactly as its last assignment
said (untouched names keep their membership), and the encoding is the DER encoding of that set. -/
theorem C12_updates (m : BitMap) (hk : (m.map Prod.fst).Nodup) (us : List (String × Bool)) (hu : ∀ u ∈ us, u.1 ∈ m.map Prod.snd)
    (o o' : BitObj (List BitKey)) (v : List BitKey) (h : NamedBits.native m o = .ok (v, o')) :
    ∃ o2 o3 v2, applyUpdates m us o = .ok o2 ∧ NamedBits.native m o2 = .ok (v2, o3) ∧
      (∀ t, (BitKey.name t ∈ v2 ↔ lastSaid t us (decide (BitKey.name t ∈ v)) = true)) ∧
      (∀ n, BitKey.index n ∈ v2 ↔ BitKey.index n ∈ v) ∧
      (us ≠ [] → ∃ c, o2.contents = some c ∧ NameContents m v2 c) := by
  induction us generalizing o o' v with
  | nil => exact ⟨o, o', v, rfl, h, by simp [lastSaid], by simp, by simp⟩
  | cons u us ih =>
    obtain ⟨s, b⟩ := u
    obtain ⟨o2, v2, c, h1, h2, h3, h4, _, h5⟩ := (C12_setitem m hk o o' v h s b).1 (hu (s, b) (by simp))
    obtain ⟨o3, o4, v3, k1, k2, k3, k4, k5⟩ := ih (fun x hx => hu x (by simp [hx])) o2 o2 v2 h2
    refine ⟨o3, o4, v3, ?_, k2, ?_, ?_, ?_⟩
    · rw [applyUpdates]
      simp only [h1, bind, Except.bind]
      exact k1
    · intro t
      rw [k3 t, lastSaid]
      have : decide (BitKey.name t ∈ v2) = (if s = t then b else decide (BitKey.name t ∈ v)) := by
        have h6 := h5 (.name t)
        by_cases hst : s = t
        · subst hst
          rw [if_pos rfl] at h6 ⊢
          cases b <;> simp [h6]
        · rw [if_neg (by intro he; injection he with he; exact hst he.symm)] at h6
          rw [if_neg hst]
          exact decide_eq_decide.mpr h6
      rw [this]
    · intro n
      rw [k4 n, h5]
      simp
    · intro _
      by_cases hus : us = []
      · subst hus
        rw [applyUpdates] at k1
        injection k1 with k1
        subst k1
        rw [h2] at k2
        injection k2 with k2
        injection k2 with k2 _
        subst k2
        exact ⟨c, h3, h4⟩
      · exact k5 hus

/-- Setting a tuple of bits: one longer than the largest named bit allows is refused, and any other becomes the set of the names of its set
bits (of their numbers where there is no name). -/
theorem C12_tuple (m : BitMap) (hk : (m.map Prod.fst).Nodup) (p : BitObj (List BitKey)) (bits : List Bool) :
    ((∀ e ∈ m, e.1 + 1 < bits.length) → 1 < bits.length → NamedBits.setTuple m p bits = .error .valueError) ∧
    ((∃ e ∈ m, bits.length ≤ e.1 + 1) → ∃ o v c short, NamedBits.setTuple m p bits = .ok o ∧ NamedBits.native m o = .ok (v, o) ∧
      o.contents = some c ∧ BitContents short c ∧ short.getLast? ≠ some false ∧ (∀ i : Nat, short[i]? = some true ↔ bits[i]? = some true) ∧
      ∀ k, k ∈ v ↔ ∃ i : Nat, bits[i]? = some true ∧ ((∃ s, (i, s) ∈ m ∧ k = .name s) ∨ (i ∉ m.map Prod.fst ∧ k = .index i))) := by
  constructor
  · intro h h1
    have : bits.length > m.size := by
      unfold BitMap.size
      have aux : ∀ (l : List Nat) (a : Nat), (∀ x ∈ l, x + 1 < bits.length) → a + 1 < bits.length → l.foldl max a + 1 < bits.length := by
        intro l
        induction l with
        | nil => intro a _ ha; exact ha
        | cons x l ih => intro a hl ha; exact ih _ (fun y hy => hl y (by simp [hy])) (by have := hl x (by simp); omega)
      exact aux _ 0 (by simpa using h) h1
    simp only [NamedBits.setTuple, NamedBits.setBits, if_pos this]
  · rintro ⟨⟨n, s⟩, he, hn⟩
    have hlt := BitMap.lt_size he
    obtain ⟨c, u, h1, h2, _, _⟩ := bitsContents_spec (rstrip0 bits)
    have hs : NamedBits.setTuple m p bits = .ok (bitPut p (bitNames m 0 bits []) c u) := by
      simp only [NamedBits.setTuple, NamedBits.setBits, if_neg (show ¬ bits.length > m.size by simp only at hn; omega), h1, bind, Except.bind]
      rfl
    obtain ⟨k, h3, h4⟩ := rstrip0_spec bits
    refine ⟨_, bitNames m 0 bits [], c, rstrip0 bits, hs, rfl, rfl, h2, h4, getElem?_rstrip0 bits, ?_⟩
    intro k
    rw [mem_bitNames]
    simp only [List.not_mem_nil, false_or, Nat.zero_add]
    refine exists_congr fun i => and_congr_right fun _ => ?_
    unfold BitMap.key
    cases hg : m.get i with
    | some s =>
      have hm := (BitMap.get_iff hk i s).mp hg
      constructor
      · intro h; exact .inl ⟨s, hm, h⟩
      · rintro (⟨s', h1, h2⟩ | ⟨h1, _⟩)
        · rw [(BitMap.get_iff hk i s').mpr h1] at hg
          cases hg
          exact h2
        · exact absurd (List.mem_map.mpr ⟨_, hm, rfl⟩) h1
    | none =>
      have hm : i ∉ m.map Prod.fst := by
        intro h
        obtain ⟨⟨_, s⟩, h1, rfl⟩ := List.mem_map.mp h
        rw [(BitMap.get_iff hk _ s).mpr h1] at hg
        cases hg
      constructor
      · intro h; exact .inr ⟨hm, h⟩
      · rintro (⟨s', h1, _⟩ | ⟨_, h2⟩)
        · exact absurd (List.mem_map.mpr ⟨_, h1, rfl⟩) hm
        · exact h2

/-- Setting and reading back after loading with an unnamed bit: the bit shows up as its number, and a later assignment
to a name drops it from the encoding although `native` still lists it. -/
theorem C12_unnamed_bit_dropped :
    (do
      let o ← NamedBits.load NamedBits.new.toObj [0x03, 0x02, 0x05, 0x40]
      let o ← NamedBits.setItem [(0, "a"), (2, "c")] o (.name "a") true
      let (v, o) ← NamedBits.native [(0, "a"), (2, "c")] o
      let (b, _) ← NamedBits.dump [(0, "a"), (2, "c")] o
      pure (v, b) : Py (List BitKey × Bytes)) = .ok ([.index 1, .name "a"], [0x03, 0x02, 0x07, 0x80]) := by decide +kernel

/-- A name outside the map is accepted by `set` and reported by `native`, but not encoded. -/
theorem C12_unknown_name_accepted :
    (do
      let o ← NamedBits.set [(0, "a"), (2, "c")] NamedBits.new [.name "bogus", .name "c"]
      let (v, o) ← NamedBits.native [(0, "a"), (2, "c")] o
      let (b, _) ← NamedBits.dump [(0, "a"), (2, "c")] o
      pure (v, b) : Py (List BitKey × Bytes)) = .ok ([.name "bogus", .name "c"], [0x03, 0x02, 0x05, 0x20]) := by decide +kernel

/-- Non-vacuity: three updates on a set of two names. -/
example : (do
    let o ← NamedBits.set [(0, "a"), (1, "b"), (9, "j")] NamedBits.new [.name "a", .name "j"]
    let o ← applyUpdates [(0, "a"), (1, "b"), (9, "j")] [("b", true), ("j", false), ("a", true)] o
    let (v, _) ← NamedBits.native [(0, "a"), (1, "b"), (9, "j")] o
    let (b, _) ← NamedBits.dump [(0, "a"), (1, "b"), (9, "j")] o
    pure (v, b) : Py (List BitKey × Bytes)) = .ok ([.name "a", .name "b"], [0x03, 0x02, 0x06, 0xc0]) := by decide +kernel

/-- Tuples of bits for a map with bits 0 and 2: four are refused, three are taken. -/
example : NamedBits.setTuple [(0, "a"), (2, "c")] NamedBits.new [true, false, false, false] = .error .valueError ∧
    (do
      let o ← NamedBits.setTuple [(0, "a"), (2, "c")] NamedBits.new [true, true, false]
      let (v, _) ← NamedBits.native [(0, "a"), (2, "c")] o
      pure v : Py (List BitKey)) = .ok [.name "a", .index 1] := by decide +kernel

end Asn1.Props
