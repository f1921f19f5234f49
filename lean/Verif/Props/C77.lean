import Verif.Model.Curves
import Verif.Model.Package
import Mathlib.Tactic.Tauto

/-!
# C77 — Registered curves

`Curves.register` (Model/Curves.lean) is `NamedCurve.register`; `nameOf`, `oidOf` and `widthOf` are what reading an OID, setting a name and asking for the width of a
curve look up.
-/

namespace Asn1.Props
open Asn1 Curves

/-- What happens to the class: it is used, or a curve is registered. -/
inductive CurveEvent
  | use
  | register (name oid : String) (size : Nat)

/-- The tables after these events. -/
def afterEvents (t : Tables) : List CurveEvent → Tables
  | [] => t
  | .use :: es => afterEvents (Curves.use t) es
  | .register n o s :: es => afterEvents (Curves.register n o s t) es

/-- The OIDs and names registered. -/
def registered : List CurveEvent → List (String × String)
  | [] => []
  | .use :: es => registered es
  | .register n o _ :: es => (o, n) :: registered es

/-- The last of `l` with the key `k`, or else `d`. -/
def lastOr {V : Type} (k : String) (d : Option V) : List (String × V) → Option V
  | [] => d
  | e :: l => lastOr k (if e.1 = k then some e.2 else d) l

/-- The OIDs and widths registered. -/
def registeredSizes : List CurveEvent → List (String × Nat)
  | [] => []
  | .use :: es => registeredSizes es
  | .register _ o s :: es => (o, s) :: registeredSizes es

theorem dictGet_set {V : Type} (k x : String) (v : V) : ∀ d : List (String × V), dictGet x (dictSet k v d) = if k = x then some v else dictGet x d
  | [] => by simp [dictSet, dictGet]
  | e :: d => by
    simp only [dictSet]
    by_cases h : e.1 = k
    · by_cases hx : k = x <;> simp [h, hx, dictGet]
    · have ih := dictGet_set k x v d
      by_cases hx : k = x
      · subst hx; simp [h, dictGet, ih]
      · simp [h, dictGet, ih, hx]

/-- An OID reads as the name it was registered with last, and its width is the one registered last, whatever happened before and in between. -/
theorem C77_latest : ∀ (es : List CurveEvent) (t : Tables) (oid : String), nameOf (afterEvents t es) oid = lastOr oid (nameOf t oid) (registered es) ∧
    widthOf (afterEvents t es) oid = lastOr oid (widthOf t oid) (registeredSizes es)
  | [], t, oid => ⟨rfl, rfl⟩
  | .use :: es, t, oid => by
    have h := C77_latest es (Curves.use t) oid
    have e1 : nameOf (Curves.use t) oid = nameOf t oid := by unfold Curves.use nameOf; split <;> rfl
    have e2 : widthOf (Curves.use t) oid = widthOf t oid := by unfold Curves.use widthOf; split <;> rfl
    rw [e1, e2] at h
    exact h
  | .register n o s :: es, t, oid => by
    have h := C77_latest es (Curves.register n o s t) oid
    have e1 : nameOf (Curves.register n o s t) oid = if o = oid then some n else nameOf t oid := dictGet_set ..
    have e2 : widthOf (Curves.register n o s t) oid = if o = oid then some s else widthOf t oid := dictGet_set ..
    rw [e1, e2] at h
    exact h

/-- Each OID has one name and each name one OID. -/
def OneToOne (pairs : List (String × String)) : Prop := ∀ p ∈ pairs, ∀ q ∈ pairs, p.1 = q.1 ↔ p.2 = q.2

theorem mem_dictSet {V : Type} {k : String} {v : V} : ∀ {d : List (String × V)}, (∀ b, (k, b) ∈ d → b = v) → ∀ x, x ∈ dictSet k v d ↔ x ∈ d ∨ x = (k, v)
  | [], _, x => by simp [dictSet]
  | e :: d, h, x => by
    simp only [dictSet]
    by_cases he : e.1 = k
    · have : e = (k, v) := by
        obtain ⟨a, b⟩ := e
        cases he
        rw [h b (List.mem_cons_self ..)]
      subst this
      simp only [beq_self_eq_true, if_true, List.mem_cons]
      tauto
    · have ih := mem_dictSet (d := d) (fun b hb => h b (List.mem_cons_of_mem _ hb)) x
      simp only [beq_iff_eq, he, if_false, List.mem_cons, ih]
      tauto

theorem dictGet_mem {V : Type} {k : String} {v : V} : ∀ {d : List (String × V)}, (∀ a b, (k, a) ∈ d → (k, b) ∈ d → a = b) → (dictGet k d = some v ↔ (k, v) ∈ d)
  | [], _ => by simp [dictGet]
  | e :: d, h => by
    simp only [dictGet]
    by_cases he : e.1 = k
    · obtain ⟨a, b⟩ := e
      cases he
      simp only [beq_self_eq_true, if_true, Option.some.injEq, List.mem_cons, Prod.mk.injEq, true_and]
      constructor
      · rintro rfl; exact .inl rfl
      · rintro (rfl | hm)
        · rfl
        · exact h b v (List.mem_cons_self ..) (List.mem_cons_of_mem _ hm)
    · have ih := dictGet_mem (v := v) (d := d) (fun a b ha hb => h a b (List.mem_cons_of_mem _ ha) (List.mem_cons_of_mem _ hb))
      simp only [beq_iff_eq, he, if_false, List.mem_cons, ih]
      constructor
      · exact .inr
      · rintro (rfl | hm)
        · exact absurd rfl he
        · exact hm

theorem mem_reverse {pairs : List (String × String)} (hp : OneToOne pairs) : ∀ (l : List (String × String)) (d : List (String × String)),
    (∀ e ∈ l, e ∈ pairs) → (∀ e ∈ d, (e.2, e.1) ∈ pairs) →
    ∀ x, x ∈ l.foldl (fun d e => dictSet e.2 e.1 d) d ↔ x ∈ d ∨ (x.2, x.1) ∈ l
  | [], d, _, _, x => by simp
  | e :: l, d, hl, hd, x => by
    have hm := mem_dictSet (k := e.2) (v := e.1) (d := d) (fun b hb => (hp _ (hd _ hb) _ (hl e (List.mem_cons_self ..))).mpr rfl)
    rw [List.foldl_cons, mem_reverse hp l _ (fun y hy => hl y (List.mem_cons_of_mem _ hy)) (fun y hy => by
      rcases (hm y).mp hy with h | rfl
      · exact hd y h
      · exact hl e (List.mem_cons_self ..)) x, hm x, List.mem_cons]
    obtain ⟨a, b⟩ := x
    obtain ⟨c, d'⟩ := e
    simp only [Prod.mk.injEq]
    tauto

/-- The tables hold exactly these pairs. -/
structure Exactly (pairs : List (String × String)) (t : Tables) : Prop where
  map : ∀ x, x ∈ t.map ↔ x ∈ pairs
  reverse : ∀ d, t.reverse = some d → ∀ x, x ∈ d ↔ (x.2, x.1) ∈ pairs

theorem Exactly.use {pairs : List (String × String)} (hp : OneToOne pairs) {t : Tables} (h : Exactly pairs t) : Exactly pairs (Curves.use t) := by
  unfold Curves.use
  split
  · exact h
  · refine ⟨h.map, fun d hd x => ?_⟩
    cases hd
    rw [mem_reverse hp t.map [] (fun e he => (h.map e).mp he) (by simp) x]
    simp [h.map]

theorem Exactly.register {pairs : List (String × String)} {n o : String} (hp : OneToOne ((o, n) :: pairs)) {t : Tables} (h : Exactly pairs t) (s : Nat) :
    Exactly ((o, n) :: pairs) (Curves.register n o s t) := by
  refine ⟨fun x => ?_, fun d hd x => ?_⟩
  · have := mem_dictSet (k := o) (v := n) (d := t.map) (fun b hb =>
      (hp _ (List.mem_cons_of_mem _ ((h.map _).mp hb)) _ (List.mem_cons_self ..)).mp rfl) x
    simp only [Curves.register, this, h.map, List.mem_cons]
    tauto
  · simp only [Curves.register] at hd
    cases hr : t.reverse with
    | none => simp [hr] at hd
    | some d' =>
      rw [hr] at hd
      cases hd
      have := mem_dictSet (k := n) (v := o) (d := d') (fun b hb =>
        (hp _ (List.mem_cons_of_mem _ ((h.reverse d' hr _).mp hb)) _ (List.mem_cons_self ..)).mpr rfl) x
      rw [this, h.reverse d' hr, List.mem_cons]
      obtain ⟨a, b⟩ := x
      simp only [Prod.mk.injEq]
      tauto

theorem OneToOne.sub {p q : List (String × String)} (h : OneToOne p) (hs : ∀ x ∈ q, x ∈ p) : OneToOne q := fun a ha b hb => h a (hs a ha) b (hs b hb)

theorem Exactly.congr {p q : List (String × String)} {t : Tables} (h : Exactly p t) (hs : ∀ x, x ∈ p ↔ x ∈ q) : Exactly q t :=
  ⟨fun x => (h.map x).trans (hs x), fun d hd x => (h.reverse d hd x).trans (hs _)⟩

theorem exactly_after : ∀ (es : List CurveEvent) (pairs : List (String × String)) (t : Tables), OneToOne (pairs ++ registered es) → Exactly pairs t →
    Exactly (pairs ++ registered es) (afterEvents t es)
  | [], pairs, t, _, h => by simpa [registered, afterEvents] using h
  | .use :: es, pairs, t, hp, h => exactly_after es pairs _ hp (h.use (hp.sub fun x hx => List.mem_append_left _ hx))
  | .register n o s :: es, pairs, t, hp, h => by
    have hs : ∀ x, x ∈ ((o, n) :: pairs) ++ registered es ↔ x ∈ pairs ++ registered (.register n o s :: es) := by
      intro x
      simp only [registered, List.mem_append, List.mem_cons]
      tauto
    have hp' : OneToOne (((o, n) :: pairs) ++ registered es) := hp.sub fun x hx => (hs x).mp hx
    exact (exactly_after es _ _ hp' (h.register (hp'.sub fun x hx => List.mem_append_left _ hx) s)).congr hs

/-- When no name is registered for two OIDs and no OID with two names, those of the package included, then a name is encoded as the OID it was registered for,
an OID reads as that name, and nothing else is a name, whenever the class was used for the first time. Missing from the property: names and OIDs that are
registered again, see `C77_renamed_fails` and `C77_name_again_fails`. -/
theorem C77_names_partial (t : Tables) (ht : t.reverse = none) (es : List CurveEvent) (hp : OneToOne (t.map ++ registered es)) (oid name : String) :
    (oidOf (afterEvents t es) name = some oid ↔ (oid, name) ∈ t.map ++ registered es) ∧
    (nameOf (afterEvents t es) oid = some name ↔ (oid, name) ∈ t.map ++ registered es) := by
  have h : Exactly (t.map ++ registered es) (afterEvents t es) :=
    exactly_after es t.map t hp ⟨fun x => Iff.rfl, fun d hd => by rw [ht] at hd; cases hd⟩
  constructor
  · have h' := h.use hp
    unfold oidOf
    cases hr : (Curves.use (afterEvents t es)).reverse with
    | none =>
      unfold Curves.use at hr
      split at hr
      · next h => rw [h] at hr; cases hr
      · cases hr
    | some d =>
      have hd := h'.reverse d hr
      rw [Option.bind_some, dictGet_mem (fun a b ha hb => (hp _ ((hd _).mp ha) _ ((hd _).mp hb)).mpr rfl), hd]
  · unfold nameOf
    rw [dictGet_mem (fun a b ha hb => (hp _ ((h.map _).mp ha) _ ((h.map _).mp hb)).mp rfl), h.map]

/-- The names of the package. -/
def packageCurves : List (String × String) :=
  match Pkg.keys.NamedCurve with
  | .leaf (.oid k _) _ => (k.map.getD []).map fun e => (String.ofList e.1, String.ofList e.2)
  | _ => []

/-- Non-vacuity: the names of the package with a new curve, registered after the class has been used. -/
example : OneToOne (packageCurves ++ registered [.use, .register "curve_of_mine" "1.2.3.4" 40]) ∧ packageCurves.length = 72 := by
  refine ⟨?_, by decide +kernel⟩
  intro p hp q hq
  have : ∀ p ∈ packageCurves ++ [("1.2.3.4", "curve_of_mine")], ∀ q ∈ packageCurves ++ [("1.2.3.4", "curve_of_mine")],
      decide (p.1 = q.1) = decide (p.2 = q.2) := by decide +kernel
  simpa using this p hp q hq

/-- **The property fails for an OID that is registered with another name**: whether the name it had is still accepted depends on whether the class had been used
before. -/
theorem C77_renamed_fails (oid a b : String) (hab : a ≠ b) (n m : Nat) :
    oidOf (afterEvents ⟨[(oid, a)], none, [(oid, n)]⟩ [.use, .register b oid m]) a = some oid ∧
    oidOf (afterEvents ⟨[(oid, a)], none, [(oid, n)]⟩ [.register b oid m]) a = none := by
  have hba : ¬ b = a := fun h => hab h.symm
  simp [afterEvents, oidOf, Curves.use, Curves.register, dictSet, dictGet, hab, hba]

/-- **It fails for a name that is registered for another OID**: the OID it stood for still reads as the name, but setting that name gives the other OID. -/
theorem C77_name_again_fails (oid oid' a : String) (h : oid ≠ oid') (n m : Nat) (es : List CurveEvent) (he : es = [.register a oid' m] ∨ es = [.use, .register a oid' m]) :
    nameOf (afterEvents ⟨[(oid, a)], none, [(oid, n)]⟩ es) oid = some a ∧ oidOf (afterEvents ⟨[(oid, a)], none, [(oid, n)]⟩ es) a = some oid' := by
  rcases he with rfl | rfl <;> simp [afterEvents, oidOf, nameOf, Curves.use, Curves.register, dictSet, dictGet, h]

end Asn1.Props
