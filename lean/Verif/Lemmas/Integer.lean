import Verif.Model.Integer
import Verif.Lemmas.Obj
import Mathlib.Data.List.Nodup

/-! # Lemmas on integers with name maps -/

namespace Asn1
open Spec

theorem primDump_fresh {ν : Type} {k : Bool} {nat : Obj ν → Py (Option ν × Obj ν)} {st : Obj ν → ν → Py (Obj ν)}
    {sn : Obj ν → Py (Obj ν)} {o : Obj ν} (hh : o.header = none) : primDump k nat st sn o false = asn1Dump k o := by
  unfold primDump; rw [hh]; rfl

theorem find?_eq_of_nodup {α β : Type} [BEq α] [LawfulBEq α] (l : List (α × β)) (hn : (l.map Prod.fst).Nodup) {a : α} {b : β}
    (h : (a, b) ∈ l) : l.find? (fun e => e.1 == a) = some (a, b) := by
  induction l with
  | nil => simp at h
  | cons x xs ih =>
    simp only [List.map_cons, List.nodup_cons] at hn
    rcases List.mem_cons.mp h with rfl | h
    · simp
    · have : x.1 ≠ a := by
        rintro rfl
        exact hn.1 (List.mem_map.mpr ⟨_, h, rfl⟩)
      rw [List.find?_cons_of_neg (by simpa using this)]
      exact ih hn.2 h

theorem find?_eq_of_nodup_snd {α β : Type} [BEq β] [LawfulBEq β] (l : List (α × β)) (hn : (l.map Prod.snd).Nodup) {a : α} {b : β}
    (h : (a, b) ∈ l) : l.find? (fun e => e.2 == b) = some (a, b) := by
  induction l with
  | nil => simp at h
  | cons x xs ih =>
    simp only [List.map_cons, List.nodup_cons] at hn
    rcases List.mem_cons.mp h with rfl | h
    · simp
    · have : x.2 ≠ b := by
        rintro rfl
        exact hn.1 (List.mem_map.mpr ⟨_, h, rfl⟩)
      rw [List.find?_cons_of_neg (by simpa using this)]
      exact ih hn.2 h

theorem IntMap.get_of_mem {m : IntMap} (hk : (m.map Prod.fst).Nodup) {n : Int} {s : String} (h : (n, s) ∈ m) :
    m.get n = some s := by
  unfold IntMap.get; rw [find?_eq_of_nodup m hk h]; rfl

theorem IntMap.rev_of_mem {m : IntMap} (hn : (m.map Prod.snd).Nodup) {n : Int} {s : String} (h : (n, s) ∈ m) :
    m.rev s = some n := by
  unfold IntMap.rev
  rw [find?_eq_of_nodup_snd m.reverse (by rw [List.map_reverse]; exact (List.nodup_reverse).mpr hn) (by simpa using h)]; rfl

theorem IntMap.get_none {m : IntMap} {n : Int} (h : n ∉ m.map Prod.fst) : m.get n = none := by
  unfold IntMap.get
  rw [Option.map_eq_none_iff, List.find?_eq_none]
  intro x hx
  simp only [beq_iff_eq]
  rintro rfl
  exact h (List.mem_map.mpr ⟨x, hx, rfl⟩)

theorem IntMap.rev_none {m : IntMap} {s : String} (h : s ∉ m.map Prod.snd) : m.rev s = none := by
  unfold IntMap.rev
  rw [Option.map_eq_none_iff, List.find?_eq_none]
  intro x hx
  simp only [beq_iff_eq]
  rintro rfl
  exact h (List.mem_map.mpr ⟨x, by simpa using hx, rfl⟩)

theorem IntMap.rev_some {m : IntMap} {s : String} {n : Int} (h : m.rev s = some n) : (n, s) ∈ m := by
  unfold IntMap.rev at h
  rw [Option.map_eq_some_iff] at h
  obtain ⟨a, h1, h2⟩ := h
  have h3 := List.find?_some h1
  have h4 := List.mem_of_find?_eq_some h1
  obtain ⟨x, y⟩ := a
  simp only [beq_iff_eq] at h3 h2
  subst h3; subst h2
  simpa using h4

theorem IntMap.get_some {m : IntMap} {s : String} {n : Int} (h : m.get n = some s) : (n, s) ∈ m := by
  unfold IntMap.get at h
  rw [Option.map_eq_some_iff] at h
  obtain ⟨a, h1, h2⟩ := h
  have h3 := List.find?_some h1
  have h4 := List.mem_of_find?_eq_some h1
  obtain ⟨x, y⟩ := a
  simp only [beq_iff_eq] at h3 h2
  subst h3; subst h2
  exact h4

/-- What `native` shows for the number `n`. -/
def Integer.show (map : Option IntMap) (n : Int) : IntNative :=
  match map with
  | some m => match m.get n with
    | some s => .name s
    | none => .int n
  | none => .int n

theorem Integer.setInt_spec (map : Option IntMap) (o : Obj IntNative) (n : Int) :
    ∃ c, Integer.setInt map o n =
        .ok { o with native := some (Integer.show map n), contents := some c, header := none, trailer := [] } ∧
      intToBytes n true = .ok c ∧ valS c = n := by
  refine ⟨_, ?_, intToBytes_signed n, ?_⟩
  · unfold Integer.setInt
    rw [intToBytes_signed n]
    rfl
  · obtain ⟨h1, h2, h3⟩ := signedWidth_fits n
    exact valS_beBytes _ _ h3 h1 h2

theorem Integer.native_loaded (map : Option IntMap) (o : Obj IntNative) (c : Bytes) (hc : o.contents = some c)
    (hn : o.native = none) :
    Integer.native map o = .ok (some (Integer.show map (valS c)), { o with native := some (Integer.show map (valS c)) }) := by
  unfold Integer.native
  simp only [hc, hn, intFromBytes_signed]
  rfl

end Asn1
