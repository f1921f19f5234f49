import Verif.Lemmas.Pem

/-!
# C25: PEM armor and unarmor are inverse
-/

namespace Asn1.Pem
open Asn1 Asn1.Spec

theorem C25_format {name : Str} (hn : ObjectType name) {hs : List (Str × Str)} (hh : ∀ h ∈ hs, HeaderOk h) (data : Bytes) :
    ∃ pem ls, armor name data hs = .ok pem ∧ PemText name hs ls pem ∧ ls.flatten = b64encode data ∧
      (∀ l ∈ ls, l ≠ [] ∧ l.length ≤ 64) ∧ detect pem = true := by
  have hu := upper_objectType hn
  obtain ⟨pem, ls, h1, h2, h3, h4⟩ := armor_ok (name := name) (by rw [hu]; exact hn) hh data
  rw [hu] at h2
  refine ⟨pem, ls, h1, h2, h3, h4, ?_⟩
  have e : lit "-----BEGIN " = lit "-----BEGIN" ++ [32] := by decide
  unfold detect
  rw [h2, e, Bool.or_eq_true]
  left
  simp only [List.append_assoc]
  exact contains_append _ [] _

theorem unarmorAll_text {name : Str} (hn : ObjectType name) {hs : List (Str × Str)} (hh : ∀ h ∈ hs, HeaderOk h)
    {ds : List (Str × Str)} (hnd : LastValues hs ds) {data : Bytes} {ls : List Bytes} {pem : Bytes} (h : PemText name hs ls pem)
    (hf : ls.flatten = b64encode data) (hl : ∀ l ∈ ls, l ≠ []) (fs fe : Bool) (rest : Bytes) :
    lineLoop (idle fs fe) (splitlines (pem ++ rest)) =
      ⟨(name, ds, data) :: (lineLoop (idle true true) (splitlines rest)).items,
        (lineLoop (idle true true) (splitlines rest)).result⟩ := by
  have hb : ∀ x ∈ ls, ∀ c ∈ x, B64 c := fun x hx c hc =>
    b64encode_chars data c (by rw [← hf]; exact List.mem_flatten.mpr ⟨x, hx, hc⟩)
  rw [pemText_lines h, splitlines_lines _ (block_noBreak hn hh hb)]
  exact lineLoop_block hn hh hnd (fun x hx => ⟨hl x hx, hb x hx⟩) (by rw [hf]; exact b64decode_encode data) fs fe _

/-- Reading back what `armor` wrote gives the object type, the headers in order and the bytes. -/
theorem C25_round_trip {name : Str} (hn : ObjectType name) {hs : List (Str × Str)} (hh : ∀ h ∈ hs, HeaderOk h)
    (hnd : (hs.map Prod.fst).Nodup) (data : Bytes) :
    ∃ pem, armor name data hs = .ok pem ∧ unarmor pem = .ok (name, hs, data) := by
  obtain ⟨pem, ls, h1, h2, h3, h4, _⟩ := C25_format hn hh data
  refine ⟨pem, h1, ?_⟩
  have h := unarmorAll_text hn hh (last_nodup hnd) h2 h3 (fun l hl => (h4 l hl).1) false false []
  rw [List.append_nil] at h
  unfold unarmor unarmorAll
  rw [show ({} : Locals) = idle false false from rfl, h]

/-- Lines with the same name leave one header, where the first of them was and with the value of the last. -/
theorem C25_last_header {name : Str} (hn : ObjectType name) {hs ds : List (Str × Str)} (hh : ∀ h ∈ hs, HeaderOk h) (hd : LastValues hs ds) {data : Bytes}
    {ls : List Bytes} {pem : Bytes} (h : PemText name hs ls pem) (hf : ls.flatten = b64encode data) (hl : ∀ l ∈ ls, l ≠ []) : unarmor pem = .ok (name, ds, data) := by
  have h := unarmorAll_text hn hh hd h hf hl false false []
  rw [List.append_nil] at h
  unfold unarmor unarmorAll
  rw [show ({} : Locals) = idle false false from rfl, h]

example : LastValues [("A".toList, "1".toList), ("B".toList, "2".toList), ("A".toList, "3".toList)] [("A".toList, "3".toList), ("B".toList, "2".toList)] := by
  refine ⟨by decide, ?_⟩
  intro d hd
  simp only [List.mem_cons, List.not_mem_nil, or_false] at hd
  rcases hd with rfl | rfl
  · exact ⟨[("A".toList, "1".toList), ("B".toList, "2".toList)], [], rfl, by simp⟩
  · exact ⟨[("A".toList, "1".toList)], [("A".toList, "3".toList)], rfl, by decide⟩

theorem upper_eq (s : Str) : upper s = s.map Char.toUpper := by
  apply List.map_congr_left
  intro c _
  by_cases h : 97 ≤ c.toNat ∧ c.toNat ≤ 122
  · rw [if_pos h]
    have all : ∀ n < 123, 97 ≤ n → Char.ofNat (n - 32) = Char.toUpper (Char.ofNat n) := by decide
    have := all c.toNat (by omega) h.1
    rwa [Char.ofNat_toNat] at this
  · rw [if_neg h, Char.toUpper, dif_neg]
    exact h

/-- The object type is written in capital letters. -/
theorem C25_upper {name : Str} (hn : ObjectType (name.map Char.toUpper)) {hs : List (Str × Str)} (data : Bytes) :
    armor name data hs = armor (name.map Char.toUpper) data hs := by
  unfold armor
  rw [upper_objectType hn, upper_eq]

example : upper "rsa private key".toList = "RSA PRIVATE KEY".toList := by decide

instance (c : Char) : Decidable (White c) := by unfold White; infer_instance

example : ObjectType "RSA PRIVATE KEY".toList := by unfold ObjectType; decide

example : HeaderOk ("Proc-Type".toList, "4,ENCRYPTED".toList) where
  ascii := by decide
  colon := by decide
  first := by intro c hc; cases hc; decide
  last := by intro c hc; cases hc; decide

example : armor "X".toList [1, 2, 3, 255] [("A".toList, "b".toList)] = .ok (lit "-----BEGIN X-----\nA: b\n\nAQID/w==\n-----END X-----\n") := by
  decide

example : unarmor (lit "-----BEGIN X-----\nA: b\n\nAQID/w==\n-----END X-----\n") = .ok ("X".toList, [("A".toList, "b".toList)], [1, 2, 3, 255]) := by
  rfl

/-- A colon in a header name moves the rest of the name to the value. -/
theorem C25_colon_fails : ∃ pem, armor "X".toList [] [("a:b".toList, "c".toList)] = .ok pem ∧
    unarmor pem = .ok ("X".toList, [("a".toList, "b: c".toList)], []) :=
  ⟨_, rfl, rfl⟩

/-- An empty object type is written but not read. -/
theorem C25_empty_type_fails : ∃ pem, armor [] [] [] = .ok pem ∧ unarmor pem = .error .valueError :=
  ⟨_, rfl, rfl⟩

end Asn1.Pem
