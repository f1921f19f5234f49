import Verif.Spec.Cert
import Verif.Lemmas.Keep
import Mathlib.Tactic.Common

namespace Asn1.Cert
open Asn1 Spec
variable {V : Type}

/-- names of the attributes -/
def ExtState.names (st : ExtState V) : List Str := st.attrs.map Prod.fst

theorem hasAttr_iff (st : ExtState V) (n : Str) : hasAttr st n = true ↔ n ∈ st.names := by
  simp only [hasAttr, List.any_eq_true, beq_iff_eq, ExtState.names, List.mem_map]

theorem setAttr_names (st : ExtState V) (n : Str) (v : V) : (setAttr st n v).names = st.names := by
  simp only [setAttr, ExtState.names, List.map_map]
  refine List.map_congr_left fun a _ => ?_
  simp only [Function.comp_apply]
  split <;> rfl

theorem addCritical_names (st : ExtState V) (n : Str) : (addCritical st n).names = st.names := rfl

theorem getAttr_set (st : ExtState V) (n m : Str) (v : V) (h : n ∈ st.names) :
    getAttr (setAttr st n v) m = if m = n then some v else getAttr st m := by
  rcases st with ⟨p, c, attrs⟩
  simp only [getAttr, setAttr, ExtState.names] at h ⊢
  induction attrs with
  | nil => simp at h
  | cons a as ih =>
    simp only [List.map_cons, List.mem_cons] at h
    by_cases ha : a.1 = n
    · subst ha
      by_cases hm : m = a.1
      · subst hm; simp
      · have : (a.1 == m) = false := by simpa using fun e => hm e.symm
        simp only [List.map_cons, if_true, List.find?_cons, this, if_neg hm]
        by_cases hmem : a.1 ∈ as.map Prod.fst
        · have := ih hmem
          simpa only [if_neg hm] using this
        · have : as.map (fun b => if b.1 = a.1 then (b.1, some v) else b) = as := by
            conv => rhs; rw [← List.map_id as]
            refine List.map_congr_left fun b hb => ?_
            rw [if_neg]; rfl
            intro e; exact hmem (List.mem_map.2 ⟨b, hb, e⟩)
          rw [this]
    · have h' : n ∈ as.map Prod.fst := by
        rcases h with h | h
        · exact absurd h.symm ha
        · exact h
      simp only [List.map_cons, if_neg ha, List.find?_cons]
      by_cases hm : a.1 = m
      · have : m ≠ n := fun e => ha (hm.trans e)
        simp [hm, this]
      · have : (a.1 == m) = false := by simpa using hm
        simp only [this]
        exact ih h'

/-- What the state must be after the loop over `l`, from `st`. -/
def After (l : List (Str × Option V × Bool)) (st st' : ExtState V) : Prop :=
  st'.processed = st.processed ∧ st'.names = st.names ∧
  (∀ n ∈ st.names, getAttr st' n = if (l.filter fun e => e.1 = n) = [] then getAttr st n else lastValue n l) ∧
  (∀ s, st.critical = some s → s.Nodup → ∃ s', st'.critical = some s' ∧ s'.Nodup ∧
    ∀ n, n ∈ s' ↔ n ∈ s ∨ ∃ e ∈ l, e.1 = n ∧ e.2.2 = true)

theorem mapM_cons_ok {α β : Type} (f : α → Py β) (a : α) (as : List α) (r : List β)
    (h : (a :: as).mapM f = .ok r) : ∃ b bs, f a = .ok b ∧ as.mapM f = .ok bs ∧ r = b :: bs := by
  rw [List.mapM_cons] at h
  cases hb : f a with
  | error x => rw [hb] at h; simp [bind, Except.bind] at h
  | ok b =>
    cases hbs : as.mapM f with
    | error x => rw [hb, hbs] at h; simp [bind, Except.bind] at h
    | ok bs =>
      rw [hb, hbs] at h
      exact ⟨b, bs, rfl, rfl, (Except.ok.inj h).symm⟩

theorem lastValue_cons (n : Str) (e : Str × Option V × Bool) (l : List (Str × Option V × Bool)) :
    lastValue n (e :: l) = if (l.filter fun e => e.1 = n) = [] then (if e.1 = n then e.2.1 else none) else lastValue n l := by
  simp only [lastValue, List.filter_cons]
  by_cases h : (l.filter fun e => e.1 = n) = []
  · rw [h]
    by_cases he : e.1 = n <;> simp [he]
  · by_cases he : e.1 = n
    · simp only [he, decide_true, if_true]
      rw [List.getLast?_cons, if_neg h]
      cases hg : (l.filter fun e => e.1 = n).getLast? with
      | none => exact absurd (List.getLast?_eq_none_iff.1 hg) h
      | some x => rfl
    · simp [he, h]

/-- one step of the loop -/
theorem extLoop_spec (es : List (Ext V)) (st : ExtState V) :
    (∀ l, es.mapM (readExt st.names) = .ok l → ∃ st', extLoop es st = (.ok (), st') ∧ After l st st') ∧
    (∀ x, es.mapM (readExt st.names) = .error x → ∃ st', extLoop es st = (.error x, st') ∧
      st'.processed = st.processed ∧ st'.names = st.names) := by
  induction es generalizing st with
  | nil =>
    constructor
    · intro l h
      cases Except.ok.inj h
      exact ⟨st, rfl, rfl, rfl, fun n _ => by simp, fun s hs hn => ⟨s, hs, hn, fun n => by simp⟩⟩
    · intro x h; cases h
  | cons e es ih =>
    rw [List.mapM_cons]
    cases hn : e.name with
    | error x =>
      have hr : readExt st.names e = .error x := by simp [readExt, hn, bind, Except.bind]
      rw [hr]
      refine ⟨fun l h => (by cases h), fun y h => ?_⟩
      cases h
      exact ⟨st, by simp only [extLoop, hn], rfl, rfl⟩
    | ok name =>
      by_cases hm : name ∈ st.names
      · have ha := (hasAttr_iff st name).2 hm
        cases hp : e.parsed with
        | error x =>
          have hr : readExt st.names e = .error x := by simp [readExt, hn, hm, hp, bind, Except.bind, Functor.map, Except.map]
          rw [hr]
          refine ⟨fun l h => (by cases h), fun y h => ?_⟩
          cases h
          exact ⟨st, by simp only [extLoop, hn, ha, hp, if_true], rfl, rfl⟩
        | ok v =>
          cases hc : e.critical with
          | error x =>
            have hr : readExt st.names e = .error x := by
              simp [readExt, hn, hm, hp, hc, bind, Except.bind, Functor.map, Except.map]
            rw [hr]
            refine ⟨fun l h => (by cases h), fun y h => ?_⟩
            cases h
            exact ⟨setAttr st name v, by simp only [extLoop, hn, ha, hp, hc, if_true], rfl, setAttr_names st name v⟩
          | ok c =>
            have hr : readExt st.names e = .ok (name, some v, c) := by
              simp [readExt, hn, hm, hp, hc, bind, Except.bind, Functor.map, Except.map]
            rw [hr]
            have hloop : extLoop (e :: es) st =
                extLoop es (if c then addCritical (setAttr st name v) name else setAttr st name v) := by
              simp only [extLoop, hn, ha, hp, hc, if_true]
            rw [hloop]
            generalize hst1 : (if c then addCritical (setAttr st name v) name else setAttr st name v) = st1
            have hnames : st1.names = st.names := by
              rw [← hst1]; split
              · rw [addCritical_names, setAttr_names]
              · rw [setAttr_names]
            have hproc : st1.processed = st.processed := by rw [← hst1]; split <;> rfl
            have hget : ∀ n, getAttr st1 n = if n = name then some v else getAttr st n := by
              intro n
              rw [← getAttr_set st name n v hm, ← hst1]
              split <;> rfl
            have hcrit : ∀ s, st.critical = some s → s.Nodup → ∃ s', st1.critical = some s' ∧ s'.Nodup ∧
                ∀ n, n ∈ s' ↔ n ∈ s ∨ (n = name ∧ c = true) := by
              intro s hs hnd
              rw [← hst1]
              cases c with
              | false => exact ⟨s, hs, hnd, fun n => by simp⟩
              | true =>
                refine ⟨if name ∈ s then s else s ++ [name], by simp [addCritical, setAttr, hs], ?_, ?_⟩
                · split
                  · exact hnd
                  · rename_i hnm
                    rw [List.nodup_append]
                    exact ⟨hnd, List.nodup_singleton _, fun a ha b hb => by
                      rw [List.mem_singleton] at hb; rintro rfl; exact hnm (hb ▸ ha)⟩
                · intro n
                  split
                  · rename_i hnm
                    constructor
                    · exact Or.inl
                    · rintro (h | ⟨rfl, -⟩)
                      · exact h
                      · exact hnm
                  · simp
            have ih1 := ih st1
            rw [hnames] at ih1
            cases hes : es.mapM (readExt st.names) with
            | error x =>
              refine ⟨fun l h => (by cases h), fun y h => ?_⟩
              cases h
              obtain ⟨st', h1, h2, h3⟩ := ih1.2 x hes
              exact ⟨st', h1, h2.trans hproc, h3.trans (by first | exact hnames | rfl)⟩
            | ok l' =>
              refine ⟨fun l h => ?_, fun y h => by cases h⟩
              cases Except.ok.inj h
              obtain ⟨st', h1, h2, h3, h4, h5⟩ := ih1.1 l' hes
              refine ⟨st', h1, h2.trans hproc, h3.trans hnames, fun n hnn => ?_, fun s hs hnd => ?_⟩
              · rw [h4 n (hnames ▸ hnn), lastValue_cons, hget]
                by_cases hf : (l'.filter fun e => e.1 = n) = []
                · by_cases he : name = n
                  · subst he; simp [hf]
                  · have : ¬ n = name := fun e => he e.symm
                    simp [hf, he, this]
                · by_cases he : name = n
                  · subst he; simp [hf]
                  · simp [hf, he]
              · obtain ⟨s1, hs1, hnd1, hm1⟩ := hcrit s hs hnd
                obtain ⟨s2, hs2, hnd2, hm2⟩ := h5 s1 hs1 hnd1
                refine ⟨s2, hs2, hnd2, fun n => ?_⟩
                rw [hm2, hm1]
                simp only [List.mem_cons, exists_eq_or_imp]
                constructor
                · rintro ((h | ⟨rfl, hc⟩) | h)
                  · exact Or.inl h
                  · exact Or.inr (Or.inl ⟨rfl, hc⟩)
                  · exact Or.inr (Or.inr h)
                · rintro (h | ⟨rfl, hc⟩ | h)
                  · exact Or.inl (Or.inl h)
                  · exact Or.inl (Or.inr ⟨rfl, hc⟩)
                  · exact Or.inr h
      · have ha : hasAttr st name = false := by
          cases h : hasAttr st name with
          | false => rfl
          | true => exact absurd ((hasAttr_iff st name).1 h) hm
        cases hc : e.critical with
        | error x =>
          have hr : readExt st.names e = .error x := by simp [readExt, hn, hm, hc, bind, Except.bind]
          rw [hr]
          refine ⟨fun l h => (by cases h), fun y h => ?_⟩
          cases h
          exact ⟨st, by simp [extLoop, hn, ha, hc], rfl, rfl⟩
        | ok c =>
          have hr : readExt st.names e = .ok (name, none, c) := by simp [readExt, hn, hm, hc, bind, Except.bind]
          rw [hr]
          have hloop : extLoop (e :: es) st = extLoop es (if c then addCritical st name else st) := by
            simp [extLoop, hn, ha, hc]
          rw [hloop]
          generalize hst1 : (if c then addCritical st name else st) = st1
          have hnames : st1.names = st.names := by rw [← hst1]; split <;> rfl
          have hproc : st1.processed = st.processed := by rw [← hst1]; split <;> rfl
          have hget : ∀ n, getAttr st1 n = getAttr st n := by intro n; rw [← hst1]; split <;> rfl
          have hcrit : ∀ s, st.critical = some s → s.Nodup → ∃ s', st1.critical = some s' ∧ s'.Nodup ∧
              ∀ n, n ∈ s' ↔ n ∈ s ∨ (n = name ∧ c = true) := by
            intro s hs hnd
            rw [← hst1]
            cases c with
            | false => exact ⟨s, hs, hnd, fun n => by simp⟩
            | true =>
              refine ⟨if name ∈ s then s else s ++ [name], by simp [addCritical, hs], ?_, ?_⟩
              · split
                · exact hnd
                · rename_i hnm
                  rw [List.nodup_append]
                  exact ⟨hnd, List.nodup_singleton _, fun a ha b hb => by
                    rw [List.mem_singleton] at hb; rintro rfl; exact hnm (hb ▸ ha)⟩
              · intro n
                split
                · rename_i hnm
                  constructor
                  · exact Or.inl
                  · rintro (h | ⟨rfl, -⟩)
                    · exact h
                    · exact hnm
                · simp
          have ih1 := ih st1
          rw [hnames] at ih1
          cases hes : es.mapM (readExt st.names) with
          | error x =>
            refine ⟨fun l h => (by cases h), fun y h => ?_⟩
            cases h
            obtain ⟨st', h1, h2, h3⟩ := ih1.2 x hes
            exact ⟨st', h1, h2.trans hproc, h3.trans (by first | exact hnames | rfl)⟩
          | ok l' =>
            refine ⟨fun l h => ?_, fun y h => by cases h⟩
            cases Except.ok.inj h
            obtain ⟨st', h1, h2, h3, h4, h5⟩ := ih1.1 l' hes
            refine ⟨st', h1, h2.trans hproc, h3.trans hnames, fun n hnn => ?_, fun s hs hnd => ?_⟩
            · have hne : ¬ name = n := by rintro rfl; exact hm hnn
              rw [h4 n (hnames ▸ hnn), lastValue_cons, hget]
              by_cases hf : (l'.filter fun e => e.1 = n) = [] <;> simp [hf, hne]
            · obtain ⟨s1, hs1, hnd1, hm1⟩ := hcrit s hs hnd
              obtain ⟨s2, hs2, hnd2, hm2⟩ := h5 s1 hs1 hnd1
              refine ⟨s2, hs2, hnd2, fun n => ?_⟩
              rw [hm2, hm1]
              simp only [List.mem_cons, exists_eq_or_imp]
              constructor
              · rintro ((h | ⟨rfl, hc⟩) | h)
                · exact Or.inl h
                · exact Or.inr (Or.inl ⟨rfl, hc⟩)
                · exact Or.inr (Or.inr h)
              · rintro (h | ⟨rfl, hc⟩ | h)
                · exact Or.inl (Or.inl h)
                · exact Or.inl (Or.inr ⟨rfl, hc⟩)
                · exact Or.inr h

/-- The states an object with the given extensions goes through. -/
def Sound (names : List Str) (exts : Py (List (Ext V))) (st : ExtState V) : Prop :=
  st.names = names ∧
  (st.processed = false → ∀ l, readAll names exts = .ok l → ∀ n, getAttr st n = none) ∧
  (st.processed = true → ∃ l s, readAll names exts = .ok l ∧ st.critical = some s ∧ CriticalSet l s ∧
    ∀ n ∈ names, getAttr st n = lastValue n l)

theorem sound_new (names : List Str) (exts : Py (List (Ext V))) : Sound names exts (ExtState.new names) := by
  refine ⟨by simp [ExtState.names, ExtState.new, Function.comp_def], fun _ l _ n => ?_, fun h => by cases h⟩
  simp only [getAttr, ExtState.new]
  clear * -
  induction names with
  | nil => rfl
  | cons a as ih =>
    simp only [List.map_cons, List.find?_cons]
    by_cases h : a = n
    · subst h; simp
    · have : (a == n) = false := by simpa using h
      simp only [this]; exact ih

theorem setExtensions_sound {names : List Str} {exts : Py (List (Ext V))} {st : ExtState V} (h : Sound names exts st)
    (hp : st.processed = false) :
    (∀ l, readAll names exts = .ok l → ∃ st', setExtensions exts st = (.ok (), st') ∧ st'.processed = true ∧
      Sound names exts st') ∧
    (∀ x, readAll names exts = .error x → ∃ st', setExtensions exts st = (.error x, st') ∧ st'.processed = false ∧
      Sound names exts st') := by
  obtain ⟨hn, h0, -⟩ := h
  have h0 := h0 hp
  rcases st with ⟨p, c, attrs⟩
  subst hp
  cases exts with
  | error x =>
    refine ⟨fun l hl => by simp [readAll, bind, Except.bind] at hl, fun y hy => ?_⟩
    simp only [readAll, bind, Except.bind, Except.error.injEq] at hy
    subst hy
    exact ⟨_, rfl, rfl, hn, fun _ l hl => by simp [readAll, bind, Except.bind] at hl, fun h => by cases h⟩
  | ok es =>
    have key := extLoop_spec es (V := V) ⟨false, some [], attrs⟩
    have hn' : (ExtState.mk false (some []) attrs : ExtState V).names = names := hn
    rw [hn'] at key
    have hra : readAll names (.ok es) = es.mapM (readExt names) := rfl
    constructor
    · intro l hl
      obtain ⟨st', h1, h2, h3, h4, h5⟩ := key.1 l (hra ▸ hl)
      obtain ⟨s', hs', hnd, hm⟩ := h5 [] rfl List.nodup_nil
      refine ⟨{ st' with processed := true }, by simp only [setExtensions, h1], rfl, h3.trans hn', fun h => (by cases h), ?_⟩
      refine fun _ => ⟨l, s', hl, hs', ⟨hnd, fun n => by simpa using hm n⟩, fun n hnn => ?_⟩
      have := h4 n (hn'.symm ▸ hnn)
      have hz : getAttr (ExtState.mk false (some []) attrs : ExtState V) n = none := h0 l hl n
      rw [hz] at this
      show getAttr st' n = _
      rw [this]
      by_cases hf : (l.filter fun e => e.1 = n) = []
      · simp only [hf, if_true, lastValue, List.getLast?_nil]
      · rw [if_neg hf]
    · intro x hx
      obtain ⟨st', h1, h2, h3⟩ := key.2 x (hra ▸ hx)
      refine ⟨st', by simp only [setExtensions, h1], h2, h3, fun _ l hl => ?_, fun h => ?_⟩
      · rw [hx] at hl; cases hl
      · rw [h2] at h; cases h

theorem extValue_state {names : List Str} {exts : Py (List (Ext V))} {st : ExtState V} (h : Sound names exts st) (n : Str) :
    Sound names exts (extValue exts n st).2 := by
  unfold extValue
  cases hp : st.processed with
  | true => exact h
  | false =>
    have key := setExtensions_sound h hp
    cases hr : readAll names exts with
    | ok l =>
      obtain ⟨st', h1, h2, h3⟩ := key.1 l hr
      simpa only [h1, Bool.false_eq_true, if_false] using h3
    | error x =>
      obtain ⟨st', h1, h2, h3⟩ := key.2 x hr
      simpa only [h1, Bool.false_eq_true, if_false] using h3

/-- A read of an accessor. -/
theorem extValue_sound {names : List Str} {exts : Py (List (Ext V))} {st : ExtState V} (h : Sound names exts st)
    {n : Str} (hn : n ∈ names) :
    (extValue exts n st).1 = (readAll names exts).map (lastValue n) ∧ Sound names exts (extValue exts n st).2 := by
  unfold extValue
  cases hp : st.processed with
  | true =>
    obtain ⟨l, s, hl, -, -, hg⟩ := h.2.2 hp
    simp only [if_true]
    exact ⟨by rw [hl, hg n hn]; rfl, h⟩
  | false =>
    have key := setExtensions_sound h hp
    cases hr : readAll names exts with
    | ok l =>
      obtain ⟨st', h1, h2, h3⟩ := key.1 l hr
      obtain ⟨l', s, hl, -, -, hg⟩ := h3.2.2 h2
      rw [hr] at hl; cases hl
      simp only [h1, Bool.false_eq_true, if_false]
      exact ⟨by rw [hg n hn]; rfl, h3⟩
    | error x =>
      obtain ⟨st', h1, h2, h3⟩ := key.2 x hr
      simp only [h1, Bool.false_eq_true, if_false]
      exact ⟨rfl, h3⟩

/-- A read of `critical_extensions`. -/
theorem critical_sound {names : List Str} {exts : Py (List (Ext V))} {st : ExtState V} (h : Sound names exts st) :
    (∀ l, readAll names exts = .ok l → ∃ s, (criticalExtensions exts st).1 = .ok (some s) ∧ CriticalSet l s) ∧
    (∀ x, readAll names exts = .error x → (criticalExtensions exts st).1 = .error x) ∧
    Sound names exts (criticalExtensions exts st).2 := by
  unfold criticalExtensions
  cases hp : st.processed with
  | true =>
    obtain ⟨l, s, hl, hs, hc, hg⟩ := h.2.2 hp
    simp only [if_true]
    refine ⟨fun l' hl' => ?_, fun x hx => ?_, h⟩
    · rw [hl] at hl'; cases hl'; exact ⟨s, by rw [hs], hc⟩
    · rw [hl] at hx; cases hx
  | false =>
    have key := setExtensions_sound h hp
    cases hr : readAll names exts with
    | ok l =>
      obtain ⟨st', h1, h2, h3⟩ := key.1 l hr
      obtain ⟨l', s, hl, hs, hc, hg⟩ := h3.2.2 h2
      rw [hr] at hl; cases hl
      simp only [h1, Bool.false_eq_true, if_false]
      exact ⟨fun l' hl' => by cases hl'; exact ⟨s, by rw [hs], hc⟩, fun x hx => (by cases hx), h3⟩
    | error x =>
      obtain ⟨st', h1, h2, h3⟩ := key.2 x hr
      simp only [h1, Bool.false_eq_true, if_false]
      exact ⟨fun l hl => (by cases hl), fun y hy => (by cases hy; rfl), h3⟩

end Asn1.Cert
