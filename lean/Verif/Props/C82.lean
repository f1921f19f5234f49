import Verif.Props.C09

/-!
# C82 — What any octets read as when they are the contents of an OBJECT IDENTIFIER

C09 is about the octets that X.690 allows; here the octets are arbitrary: padded, cut off, empty.
-/

namespace Asn1.Props
open Asn1 Spec

/-- The complete subidentifiers in `c`, each in base 128, the last octet of each below 128; octets after the last complete one do not count. -/
inductive SubIds : List UInt8 → List Nat → Prop
  | rest {c : List UInt8} : (∀ g ∈ c, 128 ≤ g.toNat) → SubIds c []
  | more {init c : List UInt8} {last : UInt8} {ns : List Nat} : (∀ g ∈ init, 128 ≤ g.toNat) → last.toNat < 128 → SubIds c ns →
      SubIds (init ++ last :: c) (val128 (init ++ [last]) :: ns)

/-- The arcs that subidentifiers stand for: the first one stands for two (X.690 8.19.4). -/
def arcsOfSubs : List Nat → List Nat
  | [] => []
  | n :: ns => if n < 40 then 0 :: n :: ns else if n < 80 then 1 :: (n - 40) :: ns else 2 :: (n - 80) :: ns

theorem subIds_total : ∀ c : List UInt8, ∃ ns, SubIds c ns
  | [] => ⟨[], .rest (by simp)⟩
  | g :: c => by
    obtain ⟨ns, h⟩ := subIds_total c
    by_cases hg : g.toNat < 128
    · exact ⟨_, @SubIds.more [] c g ns (by simp) hg h⟩
    · cases h with
      | rest h => exact ⟨[], .rest (by intro x hx; rcases List.mem_cons.mp hx with rfl | hx; omega; exact h x hx)⟩
      | @more init c last ns h1 h2 h3 =>
        exact ⟨_, @SubIds.more (g :: init) c last ns (by intro x hx; rcases List.mem_cons.mp hx with rfl | hx; omega; exact h1 x hx) h2 h3⟩

theorem arcsOfSubs_valid {ns : List Nat} (h : ns ≠ []) : OidValid (arcsOfSubs ns) := by
  cases ns with
  | nil => exact absurd rfl h
  | cons n ns =>
    by_cases h1 : n < 40
    · rw [arcsOfSubs, if_pos h1]; exact ⟨by omega, fun _ => by omega⟩
    · by_cases h2 : n < 80
      · rw [arcsOfSubs, if_neg h1, if_pos h2]; exact ⟨by omega, fun _ => by omega⟩
      · rw [arcsOfSubs, if_neg h1, if_neg h2]; exact ⟨by omega, fun h => by omega⟩

theorem arcsOfSubs_subs (ns : List Nat) : oidSubs (arcsOfSubs ns) = ns := by
  cases ns with
  | nil => rfl
  | cons n ns =>
    by_cases h1 : n < 40
    · rw [arcsOfSubs, if_pos h1]; simp [oidSubs]
    · by_cases h2 : n < 80
      · rw [arcsOfSubs, if_neg h1, if_pos h2]; simp only [oidSubs, List.cons.injEq, and_true]; omega
      · rw [arcsOfSubs, if_neg h1, if_neg h2]; simp only [oidSubs, List.cons.injEq, and_true]; omega

theorem dottedLoop_high {c : Bytes} (h : ∀ g ∈ c, 128 ≤ g.toNat) : ∀ (part : Nat) (out : List Str), Oid.dottedLoop c part out = out := by
  induction c with
  | nil => intro part out; rfl
  | cons g c ih =>
    intro part out
    have hg : ¬ (g.toNat &&& 0x80 = 0) := by rw [and_80]; have := h g (by simp); omega
    rw [Oid.dottedLoop]
    simp only
    rw [if_neg hg, ih (fun x hx => h x (by simp [hx]))]

theorem dottedLoop_later {c : Bytes} {ns : List Nat} (h : SubIds c ns) : ∀ (out : List Str), out.length ≠ 0 → Oid.dottedLoop c 0 out = out ++ ns.map pyStrNat := by
  induction h with
  | rest h => intro out _; simp [dottedLoop_high h]
  | @more init c last ns hi hl _ ih =>
    intro out hout
    rw [dottedLoop_chunk init last hi hl, if_neg hout, Nat.zero_mul, Nat.zero_add, ih _ (by simp)]
    simp

theorem dottedLoop_any {c : Bytes} {ns : List Nat} (h : SubIds c ns) : Oid.dottedLoop c 0 [] = (arcsOfSubs ns).map pyStrNat := by
  cases h with
  | rest h => simp [dottedLoop_high h, arcsOfSubs]
  | @more init c last ns hi hl h =>
    rw [dottedLoop_chunk init last hi hl, if_pos List.length_nil, Nat.zero_mul, Nat.zero_add]
    generalize val128 (init ++ [last]) = n
    rw [dottedLoop_later h _ (by split <;> [skip; split] <;> simp)]
    by_cases h80 : n ≥ 80
    · rw [if_pos h80, arcsOfSubs, if_neg (show ¬ n < 40 by omega), if_neg (show ¬ n < 80 by omega)]; simp
    · rw [if_neg h80]
      by_cases h40 : n ≥ 40
      · rw [if_pos h40, arcsOfSubs, if_neg (show ¬ n < 40 by omega), if_pos (show n < 80 by omega)]; simp
      · rw [if_neg h40, arcsOfSubs, if_pos (show n < 40 by omega)]; simp

/-- An instance with the contents octets `c`, of which nothing has been read yet. -/
structure Unread (o : OidObj) (c : Bytes) : Prop where
  contents : o.contents = some c
  native : o.native = none
  dotted : o.dotted = none

/-- Any octets read as a text: the arcs of the complete subidentifiers in them. -/
theorem C82_dotted {o : OidObj} {c : Bytes} (ho : Unread o c) : ∃ ns, SubIds c ns ∧ ∀ ms, SubIds c ms → ms = ns ∧
    ∃ o', Oid.dotted o = .ok (dottedText (arcsOfSubs ns), o') ∧ o'.contents = some c := by
  obtain ⟨ns, h⟩ := subIds_total c
  refine ⟨ns, h, fun ms h' => ⟨?_, ?_⟩⟩
  · have := dottedLoop_any h
    rw [dottedLoop_any h'] at this
    have := map_pyStrNat_inj this
    rw [← arcsOfSubs_subs ms, ← arcsOfSubs_subs ns, this]
  · unfold Oid.dotted
    rw [ho.dotted, ho.contents]
    simp only
    rw [dottedLoop_any h, dottedText_eq]
    exact ⟨_, rfl, ho.contents⟩

/-- Two contents read as the same text exactly if the same subidentifiers are in them. -/
theorem C82_same {c d : Bytes} {ns ms : List Nat} (hc : SubIds c ns) (hd : SubIds d ms) :
    Oid.dottedLoop c 0 [] = Oid.dottedLoop d 0 [] ↔ ns = ms := by
  rw [dottedLoop_any hc, dottedLoop_any hd]
  constructor
  · intro h
    rw [← arcsOfSubs_subs ns, ← arcsOfSubs_subs ms, map_pyStrNat_inj h]
  · rintro rfl; rfl

theorem native_unread {o : OidObj} {c : Bytes} {ns : List Nat} (ho : Unread o c) (h : SubIds c ns) :
    ∃ o', Oid.native plainOid o = .ok (some (dottedText (arcsOfSubs ns)), o') ∧ o'.cls = o.cls ∧ o'.method = o.method ∧ o'.tag = o.tag ∧ o'.explicit = o.explicit := by
  unfold Oid.native Oid.dotted
  rw [ho.contents]
  simp only
  rw [ho.native]
  simp only [ho.dotted]
  rw [dottedLoop_any h, dottedText_eq]
  exact ⟨_, rfl, rfl, rfl, rfl, rfl⟩

/-- Partial: if a subidentifier is complete (see `C82_empty_fails`). A forced dump writes the contents that X.690 prescribes for what was read: padding and octets after the last complete subidentifier are lost. -/
theorem C82_forced_partial {o : OidObj} {c : Bytes} {ns : List Nat} (ho : Unread o c) (h : SubIds c ns) (hn : ns ≠ []) :
    ∃ (d : Bytes) (p : OidObj), OidContents (arcsOfSubs ns) d ∧ p.cls = o.cls ∧ p.method = o.method ∧ p.tag = o.tag ∧ p.explicit = o.explicit ∧ p.header = none ∧ p.trailer = [] ∧
      p.contents = some d ∧ (Oid.dump plainOid o true).map Prod.fst = (asn1Dump false p.toObj).map Prod.fst := by
  obtain ⟨o', hnat, h1, h2, h3, h4⟩ := native_unread ho h
  obtain ⟨d, hl, hd⟩ := oidLoop_enc (arcsOfSubs ns) (arcsOfSubs_valid hn)
  have hs := set_plain { o' with contents := none } _ d hl
  refine ⟨d, { { o' with contents := none } with native := some (dottedText (arcsOfSubs ns)), contents := some d, header := none, trailer := [] }, hd,
    h1, h2, h3, h4, rfl, rfl, rfl, ?_⟩
  unfold Oid.dump
  rw [Bool.true_or, if_pos rfl, hnat]
  simp only [bind, Except.bind]
  rw [hs]
  simp only
  generalize asn1Dump false _ = r
  cases r <;> rfl

/-- **Octets without a complete subidentifier** (none at all, for example) are accepted and read as the empty text, and a forced dump is refused with `ValueError`. -/
theorem C82_empty_fails {o : OidObj} {c : Bytes} (ho : Unread o c) (h : ∀ g ∈ c, 128 ≤ g.toNat) :
    (∃ o', Oid.dotted o = .ok ([], o')) ∧ Oid.dump plainOid o true = .error .valueError := by
  have hs : SubIds c [] := .rest h
  obtain ⟨ns, h1, h2⟩ := C82_dotted ho
  obtain ⟨rfl, o', h3, _⟩ := h2 [] hs
  refine ⟨⟨o', h3⟩, ?_⟩
  obtain ⟨o', hnat, -⟩ := native_unread ho hs
  unfold Oid.dump
  rw [Bool.true_or, if_pos rfl, hnat]
  rfl

/-- **Padded and cut off contents**: `06 03 2a 80 01` and `06 03 2a 01 86` both read as 1.2.1, and are written as `06 02 2a 01`. -/
theorem C82_lossy_fails : ∀ c ∈ [[0x2a, 0x80, 0x01], [0x2a, 0x01, 0x86]], ∃ o, Oid.load Oid.new.toObj (6 :: 3 :: c) true = .ok o ∧ Unread o c ∧
    (Oid.dotted o).map Prod.fst = .ok "1.2.1".toList ∧ (Oid.dump plainOid o true).map Prod.fst = .ok [6, 2, 0x2a, 1] := by
  intro c hc
  rcases List.mem_cons.mp hc with rfl | hc
  · exact ⟨{ Oid.new with header := some [6, 3], contents := some [0x2a, 0x80, 0x01] }, rfl, ⟨rfl, rfl, rfl⟩, by decide +kernel, by decide +kernel⟩
  · rcases List.mem_cons.mp hc with rfl | hc
    · exact ⟨{ Oid.new with header := some [6, 3], contents := some [0x2a, 0x01, 0x86] }, rfl, ⟨rfl, rfl, rfl⟩, by decide +kernel, by decide +kernel⟩
    · cases hc

example : SubIds [0x2a, 0x80, 0x01, 0x86] [42, 1] :=
  @SubIds.more [] [0x80, 0x01, 0x86] 0x2a [1] (by simp) (by decide) (@SubIds.more [0x80] [0x86] 0x01 [] (by decide) (by decide) (.rest (by decide)))

example : ∃ o, Oid.load Oid.new.toObj [6, 0] true = .ok o ∧ Unread o [] := ⟨_, rfl, rfl, rfl, rfl⟩

end Asn1.Props
