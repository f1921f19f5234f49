import Verif.Model.Oid
import Verif.Spec.Oid
import Verif.Lemmas.Obj
import Verif.Lemmas.PyStr
import Mathlib.Tactic.Ring

/-! # Lemmas on OBJECT IDENTIFIER coding -/

namespace Asn1
open Spec

theorem oidTail_spec (n : Nat) (acc : Bytes) : dumpTagLoop n 0x80 acc = .ok (oidTail n acc) := by
  induction n using Nat.strongRecOn generalizing acc with
  | _ n ih =>
    rw [dumpTagLoop, oidTail]
    by_cases h : n > 0
    · rw [dif_pos h, dif_pos h]
      have hor : ∀ k, k < 128 → (0x80 ||| k) = 128 + k := by decide
      unfold chrCls
      have hm : n &&& 0x7f = n % 128 := and_127 n
      rw [hm, hor _ (Nat.mod_lt _ (by decide)), if_pos (by omega)]
      simp only [bind, Except.bind, List.singleton_append]
      exact ih _ (by rw [shr_7]; omega) _
    · rw [dif_neg h, dif_neg h]

/-- One arc is encoded as a base-128 number without leading zero group. -/
theorem oidPart_vlq (n : Nat) : Vlq (oidPart n) n := by
  unfold oidPart
  have h1 : ((n : Int) / 128).toNat = n / 128 := by omega
  have h2 : ((n : Int) % 128).toNat = n % 128 := by omega
  rw [h1, h2]
  obtain ⟨gs, hg, ha, hv, hh⟩ := dumpTagLoop_cont (n / 128) [UInt8.ofNat (n % 128)]
  rw [oidTail_spec] at hg
  injection hg with hg
  rw [hg]
  have hb : (UInt8.ofNat (n % 128)).toNat = n % 128 := toNat_ofNat_lt (by omega)
  refine ⟨gs, _, rfl, ha, by omega, ?_, ?_⟩
  · cases gs with
    | nil =>
      intro hc
      simp only [List.nil_append, List.head?_cons, Option.some.injEq] at hc
      have := congrArg UInt8.toNat hc
      rw [hb] at this
      have e : (0x80 : UInt8).toNat = 128 := rfl
      omega
    | cons z zs => simpa using hh
  · rw [val128_append, hv]
    simp only [val128, hb, List.length_singleton, List.length_nil, Nat.pow_one, Nat.pow_zero]
    omega

theorem oidLoop_rest (first : Int) (arcs : List Nat) : ∀ (idx : Nat) (acc : Bytes), 2 ≤ idx →
    oidLoop idx first (arcs.map pyStrNat) acc = (acc ++ (arcs.map (fun a : Nat => oidPart (a : Int))).flatten, none) := by
  induction arcs with
  | nil => intro idx acc _; simp [oidLoop]
  | cons a as ih =>
    intro idx acc hidx
    simp only [List.map_cons, oidLoop, pyInt_pyStrNat]
    rw [if_neg (by omega), if_neg (by omega), ih _ _ (by omega)]
    simp

theorem dot_not_mem (arcs : List Nat) : ∀ p ∈ arcs.map pyStrNat, ∀ c ∈ p, c ≠ '.' := by
  intro p hp c hc
  obtain ⟨n, _, rfl⟩ := List.mem_map.mp hp
  obtain ⟨d, hd, rfl⟩ := mem_pyStrNat n c hc
  exact (digitChar_facts d hd).2.2.2.1

/-- The dotted text of a list of arcs. -/
def dottedStr (arcs : List Nat) : Str := pyJoin ['.'] (arcs.map pyStrNat)

theorem pySplit_dottedStr (arcs : List Nat) (h : arcs ≠ []) : pySplit '.' (dottedStr arcs) = arcs.map pyStrNat := by
  unfold dottedStr
  exact pySplit_join '.' _ (by simpa using h) (dot_not_mem arcs)

theorem oidLoop_valid (a b : Nat) (rest : List Nat) (hv : OidValid (a :: b :: rest)) :
    oidLoop 0 0 (pySplit '.' (dottedStr (a :: b :: rest))) [] =
      (((oidSubs (a :: b :: rest)).map (fun n : Nat => oidPart (n : Int))).flatten, none) := by
  rw [pySplit_dottedStr _ (by simp)]
  obtain ⟨h1, h2⟩ := hv
  simp only [List.map_cons]
  rw [oidLoop]
  simp only [pyInt_pyStrNat, if_true]
  rw [oidLoop]
  simp only [pyInt_pyStrNat]
  rw [if_neg (by decide), if_pos trivial, if_neg (by omega), if_neg (by omega), oidLoop_rest _ _ _ _ (by decide)]
  simp only [oidSubs, List.map_cons, List.flatten_cons, List.nil_append]
  rw [show (a : Int) * 40 + b = ((40 * a + b : Nat) : Int) by push_cast; ring]

theorem forall2_parts (subs : List Nat) : List.Forall₂ Vlq (subs.map (fun n : Nat => oidPart (n : Int))) subs := by
  induction subs with
  | nil => exact .nil
  | cons n ns ih => exact .cons (oidPart_vlq n) ih

theorem and_80 (b : UInt8) : (b.toNat &&& 0x80 = 0) ↔ b.toNat < 128 := by
  have : ∀ b < 256, (b &&& 0x80 = 0) ↔ b < 128 := by decide +kernel
  exact this _ b.toNat_lt

/-- Consuming one subidentifier. -/
theorem dottedLoop_chunk (init : Bytes) (last : UInt8) (hi : ∀ g ∈ init, 128 ≤ g.toNat) (hl : last.toNat < 128)
    (rest : Bytes) (out : List Str) : ∀ part,
    Oid.dottedLoop (init ++ last :: rest) part out =
      Oid.dottedLoop rest 0
        (if out.length = 0 then
          if part * 128 ^ (init.length + 1) + val128 (init ++ [last]) ≥ 80 then
            out ++ [pyStrNat 2, pyStrNat (part * 128 ^ (init.length + 1) + val128 (init ++ [last]) - 80)]
          else if part * 128 ^ (init.length + 1) + val128 (init ++ [last]) ≥ 40 then
            out ++ [pyStrNat 1, pyStrNat (part * 128 ^ (init.length + 1) + val128 (init ++ [last]) - 40)]
          else out ++ [pyStrNat 0, pyStrNat (part * 128 ^ (init.length + 1) + val128 (init ++ [last]))]
        else out ++ [pyStrNat (part * 128 ^ (init.length + 1) + val128 (init ++ [last]))]) := by
  induction init with
  | nil =>
    intro part
    have hand : last.toNat &&& 127 = last.toNat % 128 := and_127 _
    simp only [List.nil_append, Oid.dottedLoop, hand, (and_80 last).mpr hl, if_true, val128, List.length_nil,
      Nat.pow_zero, Nat.mul_one, Nat.zero_add, Nat.pow_one, Nat.add_zero]
  | cons x xs ih =>
    intro part
    have hand : x.toNat &&& 127 = x.toNat % 128 := and_127 _
    have hx : ¬ (x.toNat &&& 0x80 = 0) := by
      rw [and_80]; have := hi x (by simp); omega
    have e : (part * 128 + x.toNat % 128) * 128 ^ (xs.length + 1) + val128 (xs ++ [last]) =
        part * 128 ^ ((x :: xs).length + 1) + val128 (x :: xs ++ [last]) := by
      simp only [List.cons_append, val128, List.length_cons, List.length_append, List.length_nil]
      ring
    rw [List.cons_append, Oid.dottedLoop]
    simp only [hand]
    rw [if_neg hx, ih (fun g hg => hi g (by simp [hg])), e]

theorem dottedLoop_rest (chunks : List Bytes) (subs : List Nat) (h : List.Forall₂ Vlq chunks subs) :
    ∀ (out : List Str), out.length ≠ 0 → Oid.dottedLoop chunks.flatten 0 out = out ++ subs.map pyStrNat := by
  induction h with
  | nil => intro out _; simp [Oid.dottedLoop]
  | cons hv _ ih =>
    intro out hout
    obtain ⟨init, last, rfl, hi, hl, _, hval⟩ := hv
    rw [List.flatten_cons, List.append_assoc, List.singleton_append, dottedLoop_chunk init last hi hl]
    rw [if_neg hout, Nat.zero_mul, Nat.zero_add, hval, ih _ (by simp)]
    simp

/-- Decoding conforming contents gives the arcs. -/
theorem dottedLoop_contents (arcs : List Nat) (hv : OidValid arcs) (c : Bytes) (hc : OidContents arcs c) :
    Oid.dottedLoop c 0 [] = arcs.map pyStrNat := by
  match arcs, hv with
  | a :: b :: rest, hv =>
    obtain ⟨chunks, rfl, hf⟩ := hc
    obtain ⟨h1, h2⟩ := hv
    simp only [oidSubs] at hf
    cases hf with
    | cons hv0 hr =>
      obtain ⟨init, last, rfl, hi, hl, _, hval⟩ := hv0
      rw [List.flatten_cons, List.append_assoc, List.singleton_append, dottedLoop_chunk init last hi hl,
        Nat.zero_mul, Nat.zero_add, hval, dottedLoop_rest _ _ hr]
      · simp only [List.length_nil, if_true, List.nil_append, List.map_cons]
        by_cases h80 : 40 * a + b ≥ 80
        · rw [if_pos h80]
          have : a = 2 := by omega
          subst this
          simp
        · rw [if_neg h80]
          by_cases h40 : 40 * a + b ≥ 40
          · rw [if_pos h40]
            have : a = 1 := by omega
            subst this
            simp
          · rw [if_neg h40]
            have : a = 0 := by omega
            subst this
            simp
      · simp only [List.length_nil, if_true]
        repeat' split
        all_goals simp

theorem map_pyStrNat_inj {a b : List Nat} (h : a.map pyStrNat = b.map pyStrNat) : a = b :=
  (List.map_inj_right (fun _ _ h => pyStrNat_inj h)).mp h

theorem OidContents_unique {arcs : List Nat} {c d : Bytes} (hc : OidContents arcs c) (hd : OidContents arcs d) : c = d := by
  obtain ⟨cs, rfl, h1⟩ := hc
  obtain ⟨ds, rfl, h2⟩ := hd
  have : cs = ds := by
    generalize oidSubs arcs = subs at h1 h2
    induction h1 generalizing ds with
    | nil => cases h2; rfl
    | cons hv _ ih =>
      cases h2 with
      | cons hv' hr => rw [Vlq_unique hv hv', ih _ hr]
  rw [this]

theorem pyStrNat_eq (n : Nat) : pyStrNat n = Nat.toDigits 10 n := by
  have hd : ∀ d < 10, digitChar d = Nat.digitChar d := by decide
  induction n using Nat.strongRecOn with
  | _ n ih =>
    rw [pyStrNat]
    split
    · next h => rw [Nat.toDigits_of_lt_base h, hd n h]
    · next h =>
      rw [Nat.toDigits_of_base_le (by decide) (by omega), ih _ (by omega), hd _ (by omega)]

theorem pyJoin_eq {α : Type} (sep : List α) : ∀ ps : List (List α), pyJoin sep ps = List.intercalate sep ps
  | [] => rfl
  | [x] => by simp [pyJoin, List.intercalate]
  | x :: y :: ys => by
    rw [pyJoin, pyJoin_eq sep (y :: ys)]
    simp [List.intercalate, List.intersperse]

theorem dottedText_eq (arcs : List Nat) : dottedText arcs = dottedStr arcs := by
  unfold dottedText dottedStr
  rw [pyJoin_eq]
  congr 1
  exact List.map_congr_left (fun n _ => (pyStrNat_eq n).symm)

theorem oidLoop_error : ∀ (ss : List Str) (idx : Nat) (first : Int) (acc c : Bytes) (e : PyErr),
    oidLoop idx first ss acc = (c, some e) → e = .valueError := by
  intro ss
  induction ss with
  | nil => intro idx first acc c e h; simp [oidLoop] at h
  | cons s ss ih =>
    intro idx first acc c e h
    rw [oidLoop] at h
    cases hp : pyInt s with
    | error e' =>
      rw [hp] at h
      simp only [Prod.mk.injEq, Option.some.injEq] at h
      rw [← h.2]
      exact pyInt_error hp
    | ok part =>
      rw [hp] at h
      simp only at h
      split at h
      · exact ih _ _ _ _ _ h
      · split at h
        · split at h
          · simp only [Prod.mk.injEq, Option.some.injEq] at h; exact h.2.symm
          · split at h
            · simp only [Prod.mk.injEq, Option.some.injEq] at h; exact h.2.symm
            · exact ih _ _ _ _ _ h
        · exact ih _ _ _ _ _ h

theorem oidLoop_ok_rest : ∀ (ss : List Str) (idx : Nat) (first : Int) (acc : Bytes), 2 ≤ idx →
    ((oidLoop idx first ss acc).2 = none ↔ ∀ s ∈ ss, ∃ n, pyInt s = .ok n) := by
  intro ss
  induction ss with
  | nil => intro idx first acc _; simp [oidLoop]
  | cons s ss ih =>
    intro idx first acc hidx
    rw [oidLoop]
    cases hp : pyInt s with
    | error e' => simp [hp]
    | ok part =>
      simp only
      rw [if_neg (by omega), if_neg (by omega), ih _ _ _ (by omega)]
      simp [hp]

end Asn1
