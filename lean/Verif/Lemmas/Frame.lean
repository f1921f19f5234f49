import Verif.Lemmas.Tag
import Verif.Lemmas.KeepBuild
import Verif.Spec.Schema

/-! # Elements inside explicit tags, as they are written and as they are read -/

namespace Asn1
open Spec

theorem inside_append {es es' : List (Nat × Nat)} {t v u : TLV} (h : Inside es t v) (h' : Inside es' v u) : Inside (es ++ es') t u := by
  induction h with
  | nil => exact h'
  | cons h1 h2 h3 _ ih => exact .cons h1 h2 h3 (ih h')

theorem inside_ber {es : List (Nat × Nat)} {t u : TLV} (h : Inside es t u) (hb : Ber 11 t) : Ber 11 u := by
  induction h with
  | nil => exact hb
  | cons h1 h2 h3 _ ih => exact ih h3

theorem framed_ber {d : Nat × Nat} {p : Params} {t u : TLV} (h : Framed d p t u) : Ber 11 u := inside_ber h.inside h.ber

/-- A header that has been written makes one element. -/
theorem dumpHeader_ber {cl m tg : Nat} {c h : Bytes} (hc : cl < 4) (hm : m < 2) (hd : dumpHeader cl m tg c = .ok h) :
    Ber 11 ⟨cl, m, tg, h, c, []⟩ :=
  Ber_mono (dumpHeader_parse hc hm (dumpHeader_fits hd) hd).2 (by decide)

theorem wrapExplicit_inside : ∀ (es : List (Nat × Nat)) (h c h' : Bytes) (u : TLV), (∀ e ∈ es, e.1 < 4) →
    wrapExplicit es h c = .ok h' → u.bytes = h ++ c → u.trailer = [] → Ber 11 u →
    ∃ t : TLV, t.bytes = h' ++ c ∧ Ber 11 t ∧ Inside es.reverse t u ∧ t.trailer = []
  | [], h, c, h', u, _, hw, hu, ht, hb => by
    cases hw
    exact ⟨u, hu, hb, .nil, ht⟩
  | (cl, tg) :: es, h, c, h', u, he, hw, hu, ht, hb => by
    simp only [wrapExplicit, py_bind] at hw
    obtain ⟨h1, hd, hw⟩ := hw
    have hcl := he (cl, tg) (by simp)
    obtain ⟨t, t1, t2, t3, t4⟩ := wrapExplicit_inside es (h1 ++ h) c h' ⟨cl, 1, tg, h1, h ++ c, []⟩ (fun e h => he e (by simp [h])) hw
      (by simp [TLV.bytes]) rfl (dumpHeader_ber hcl (by decide) hd)
    refine ⟨t, t1, t2, ?_, t4⟩
    rw [List.reverse_cons]
    exact inside_append t3 (Inside.cons (v := ⟨cl, 1, tg, h1, h ++ c, []⟩) rfl hu.symm hb .nil)

/-- Class attributes of a class without tags of its own other than the class and tag number. -/
structure BlankObj {ν : Type} (o : Obj ν) (m : Nat) : Prop where
  cls : o.cls < 4
  method : o.method = m
  implicit : o.implicit = false
  explicit : o.explicit = []
  header : o.header = none
  trailer : o.trailer = []
  indefinite : o.indefinite = false

/-- Params of which the code takes notice as the definition says. -/
structure GoodParams (p : Params) : Prop where
  keep : p.noExplicit = false
  valid : p.Valid
  one : p.explicit = [] ∨ p.implicit = none

theorem effTag_valid {d : Nat × Nat} {p : Params} (hp : p.Valid) (hd : d.1 < 4) : (effTag d p).1 < 4 := by
  unfold effTag
  split
  · cases hi : p.implicit with
    | none => exact hd
    | some e => exact hp.2 e hi
  · exact hd

/-- What is written with new headers. -/
theorem dump_framed {d : Nat × Nat} {p : Params} {cl m tg : Nat} {c h0 h : Bytes} (hp : p.Valid) (hd : d.1 < 4) (hm : m < 2)
    (he : (cl, tg) = effTag d p) (h1 : dumpHeader cl m tg c = .ok h0) (h2 : wrapExplicit p.explicit h0 c = .ok h) :
    ∃ t u : TLV, t.bytes = h ++ c ∧ Framed d p t u ∧ t.trailer = [] ∧ u.method = m ∧ u.contents = c ∧ u.trailer = [] := by
  have hcl : cl < 4 := by
    have : cl = (effTag d p).1 := by rw [← he]
    rw [this]; exact effTag_valid hp hd
  obtain ⟨t, t1, t2, t3, t4⟩ := wrapExplicit_inside p.explicit h0 c h ⟨cl, m, tg, h0, c, []⟩ hp.1 h2 (by simp [TLV.bytes]) rfl
    (dumpHeader_ber hcl hm h1)
  exact ⟨t, _, t1, ⟨t2, t3, he⟩, t4, rfl, rfl, rfl⟩

theorem explicitLoop_inside {es : List (Nat × Nat)} {t u : TLV} (h : Inside es t u) : ∀ (i : Info) (pre0 post0 : Bytes), i.tlv = t →
    ∃ (j : Info) (pre post : Bytes), j.tlv = u ∧
      explicitLoop es i (pre0 ++ i.header) (i.trailer ++ post0) = .ok (j, pre ++ j.header, j.trailer ++ post) ∧
      pre ++ u.bytes ++ post = pre0 ++ t.bytes ++ post0 ∧ (∃ q, j.trailer ++ post = q ++ (t.trailer ++ post0)) := by
  induction h with
  | nil =>
    intro i pre0 post0 hi
    exact ⟨i, pre0, post0, hi, rfl, rfl, [], by rw [← hi]; rfl⟩
  | @cons es v v' w h1 h2 h3 h4 ih =>
    intro i pre0 post0 hi
    subst hi
    have hp : parse i.contents = .ok ⟨v'.cls, v'.method, v'.tag, v'.header, v'.contents, v'.trailer⟩ :=
      (parse_ok_iff _ _).mpr ⟨[], by rw [List.append_nil]; exact h2, h3⟩
    obtain ⟨j, pre, post, j1, j2, j3, j4⟩ := ih ⟨v'.cls, v'.method, v'.tag, v'.header, v'.contents, v'.trailer⟩
      (pre0 ++ i.header) (i.trailer ++ post0) rfl
    refine ⟨j, pre, post, j1, ?_, ?_, ?_⟩
    · simp only [explicitLoop, Info.tlv, ne_eq, not_true_eq_false, if_false]
      have h1' : i.method = 1 := h1
      simp only [h1', not_true_eq_false, if_false, hp, bind, Except.bind]
      exact j2
    · rw [j3]
      have h2' : i.contents = v'.bytes := h2
      simp [TLV.bytes, Info.tlv, h2']
    · obtain ⟨q, hq⟩ := j4
      exact ⟨q ++ v'.trailer, by rw [hq]; simp [Info.tlv]⟩

/-- The instance that `_build` makes of an element. -/
def framedObj {ν : Type} (o : Obj ν) (h c tr : Bytes) (ind : Bool) : Obj ν :=
  { o with header := some h, contents := some c, trailer := tr, indefinite := ind, method := if ind then 1 else o.method, native := none }

/-- `_build` of an element with the right tags. -/
theorem buildObj_framed {ν : Type} {k : Bool} {bad : List Nat} {o : Obj ν} {m : Nat} {p : Params} {t u : TLV} {i : Info} (ho : BlankObj o m) (hp : GoodParams p)
    (hF : Framed (o.cls, o.tag) p t u) (hi : i.tlv = t) :
    ∃ h tr, t.bytes = h ++ u.contents ++ tr ∧ (tr = [] → t.trailer = []) ∧
      buildObj k bad (initTagging o p.tags) i =
        if u.method = m then .ok (framedObj (initTagging o p.tags) h u.contents tr false)
        else if u.method = 1 ∧ m = 0 ∧ u.trailer = [0, 0] ∧ k = true then .ok (framedObj (initTagging o p.tags) h u.contents tr true)
        else .error .valueError := by
  obtain ⟨f1, f2, f3, f4, f5, f6, f7⟩ := initTagging_fields o p hp.keep
  rw [ho.explicit, List.nil_append] at f2
  rw [ho.method] at f3
  rw [ho.indefinite] at f6
  obtain ⟨j, pre, post, j1, j2, j3, q, j4⟩ := explicitLoop_inside hF.inside i [] [] hi
  rw [List.append_nil, List.nil_append] at j2 j3
  have hid := hF.ident
  rw [show (if p.explicit = [] then p.implicit.getD (o.cls, o.tag) else (o.cls, o.tag)) = effTag (o.cls, o.tag) p from rfl, ← f1] at hid
  subst j1
  refine ⟨pre ++ j.header, j.trailer ++ post, ?_, ?_, ?_⟩
  · rw [← j3]; simp [TLV.bytes, Info.tlv]
  · intro h
    rw [h, List.append_nil] at j4
    exact (List.append_eq_nil_iff.mp j4.symm).2
  · rw [buildObj_eq, f2, j2]
    simp only [Except.bind]
    unfold buildBase
    have h1 : j.cls = (initTagging o p.tags).cls := (Prod.mk.inj hid).1
    have h2 : j.tag = (initTagging o p.tags).tag := (Prod.mk.inj hid).2
    simp only [h1, ne_eq, not_true_eq_false, if_false, f3, Info.tlv]
    by_cases hm : j.method = m
    · simp only [hm, not_true_eq_false, if_false, if_true, bind, Except.bind, h2, false_and]
      simp only [framedObj, f2, f3, f6, Bool.false_eq_true, if_false]
    · simp only [hm, not_false_eq_true, if_true, if_false]
      by_cases hc : j.method = 1 ∧ m = 0 ∧ j.trailer = [0, 0] ∧ k = true
      · simp only [hc, and_self, if_true, bind, Except.bind, h2, not_true_eq_false, false_and, if_false, framedObj, f2]
      · rw [if_neg hc, if_neg hc]
        rfl

end Asn1
