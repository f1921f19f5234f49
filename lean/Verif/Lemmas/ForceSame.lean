import Verif.Lemmas.ForceEnc

/-! # The value of what is written by force -/

namespace Asn1
open Spec Props

theorem shuffled_named {fields : List Field} {ns ns' : List PyVal} (h : ShuffledAll ns ns') : ∀ idx, ShuffledFields (named fields idx ns) (named fields idx ns') := by
  refine ShuffledAll.rec (motive_1 := fun _ _ _ => True) (motive_2 := fun _ _ _ => True)
    (motive_3 := fun ns ns' _ => ∀ idx, ShuffledFields (named fields idx ns) (named fields idx ns'))
    ?_ ?_ ?_ ?_ ?_ ?_ ?_ h
  · intros; trivial
  · intros; trivial
  · intros; trivial
  · trivial
  · intros; trivial
  · intro idx
    exact .nil
  · intro n n' ns ns' h1 _ _ ih idx
    exact .cons h1 (ih (idx + 1))

theorem forced_shuffled {E : Env} {U : ClassId → Prop} {spec nested : Option ClassId} {p : Params} {t t' : TLV} {n n' : PyVal}
    (h : Forced E U spec nested p t n t' n') : Shuffled n n' := by
  refine Forced.rec (E := E) (U := U)
    (motive_1 := fun _ _ _ _ n _ n' _ => Shuffled n n') (motive_2 := fun _ _ _ n _ _ => Shuffled n n)
    (motive_3 := fun _ _ _ _ _ ns _ ns' _ => ShuffledAll ns ns')
    (motive_4 := fun ch _ ns ps _ => ShuffledAll ns (ps.map Prod.snd) ∧ (ch = none → ps.map Prod.snd = ns))
    ?_ ?_ ?_ ?_ ?_ ?_ ?_ ?_ ?_ ?_ ?_ ?_ ?_ ?_ ?_ ?_ ?_ ?_ ?_ ?_ ?_ ?_ h
  · intros; exact .scalar _
  · intros; exact .scalar _
  · intro c p t u t' u' ns ns' proto bad fields oid h1 h2 h3 h4 h5 h6 h7 ih
    exact .dict (shuffled_named ih 0)
  · intro c p t u t' ns ps proto bad oid h1 h2 h3 h4 h5 ih
    have := ih.1
    rw [ih.2 rfl] at this
    exact .dict (shuffled_named this 0)
  · intro c p t u t' u' ns ps proto bad ch h1 h2 h3 h4 h5 h6 h7 ih
    exact .list ih.1 (.refl _)
  · intro c p t u t' u' ns ps qs proto bad ch h1 h2 h3 h4 ho h5 h6 h7 ih
    exact .list ih.1 (ho.1.symm.map _)
  · intros; assumption
  · intros; assumption
  · intros; exact .scalar _
  · intros; assumption
  · intros; assumption
  · intros; exact .scalar _
  · intros; exact .scalar _
  · intro es t u t' ns ps c proto bad oid h1 h2 h3 h4 h5 h6 h7 h8 h9 ih
    have := ih.1
    rw [ih.2 rfl] at this
    exact .dict (shuffled_named this 0)
  · intros; exact .nil
  · intro oid f fs before before' pick t t' b b' n n' ns ns' h1 h2 h3 h4 h5 ih1 ih2
    exact .cons ih1 ih2
  · intro oid f fs before before' t t' td b b' n n' m ns ns' h1 h2 h3 h4 h5 h6 ih1 ih2
    exact .cons ih1 ih2
  · intro oid f fs before before' t t' b b' s ns ns' h1 h2 h3 h4 ih1 ih2
    exact .cons ih1 ih2
  · intro oid f fs before before' b b' ns ns' h1 h2 h3 ih
    exact .cons (.scalar _) ih
  · intro oid f fs before before' t b b' s ns ns' h1 h2 ih
    exact .cons (.scalar _) ih
  · intro ch
    exact ⟨.nil, fun _ => rfl⟩
  · intro ch t t' b n n' ns ps h1 h2 ih1 ih2
    refine ⟨.cons ih1 ih2.1, fun hch => ?_⟩
    subst hch
    cases h1
    simp [ih2.2 rfl]

end Asn1
