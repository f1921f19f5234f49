import Verif.Lemmas.WorksHist
import Verif.Spec.Lists

/-! # SEQUENCE OF as a list -/

namespace Asn1
open Spec Props

variable {E : Env} {U : ClassId → Prop}

theorem listPos_at {n : Nat} {i : Int} {k : Nat} : listPos n i = some k ↔ IndexAt n i k := by
  unfold listPos IndexAt
  simp only []
  constructor
  · intro h
    split at h
    · split at h
      · cases h; constructor <;> omega
      · cases h
    · split at h
      · cases h; constructor <;> omega
      · cases h
  · rintro ⟨h1, h2 | h2⟩
    · subst h2
      have : ¬ ((k : Int) < 0) := by omega
      simp [this, h1]
    · subst h2
      have h3 : (k : Int) - n < 0 := by omega
      simp [h3, h1]

theorem listPos_none {n : Nat} {i : Int} (h : ∀ k, ¬ IndexAt n i k) : listPos n i = none := by
  cases hp : listPos n i with
  | none => rfl
  | some k => exact absurd (listPos_at.mp hp) (h k)

theorem at_ne_len {n : Nat} {i : Int} {k : Nat} (h : IndexAt n i k) : i ≠ n := by
  obtain ⟨h1, h2⟩ := h
  omega

theorem rep_denotes (hU : Universe E U) {q : Bool} {c : ClassId} {p : Params} {v : Val} {a : AVal} (hg : GoodUse E U c p) (h : Rep E q c p v a) :
    Denotes E c p v a := by
  constructor
  · intro n force b x' hd
    obtain ⟨_, t, rfl, ht, _⟩ := (sim_ops hU n).dump hg h hd
    exact ⟨t, rfl, ht⟩
  · intro s hs n y x' hy
    subst hs
    have := ((sim_ops hU n).native hg h hy).1
    rw [this, AVal.native]

section
variable {V : Bool → ClassId → Params → Val → AVal → Prop} {q : Bool} {c ch : ClassId} {p : Params} {proto : Obj Unit} {bad : List Nat}

/-! ### Instances -/

theorem made_len (hU : Universe E U) (hV : ∀ {q c p v a}, V q c p v a → Inst E U q c p v a) {v v' : Val} {as : List AVal} {n k : Nat}
    (h : MadeFrom E U V q c p v (.list as)) (hl : lenOf E (ops E n) v = .ok (k, v')) : k = as.length ∧ MadeFrom E U V q c p v' (.list as) := by
  obtain ⟨hg, hr⟩ := madeFrom_rep hU hV h
  obtain ⟨_, _, k2⟩ := lenOf_rep hU (sim_ops hU n) hg.mem hr hl
  refine ⟨?_, .op h (.edit (.len (.inr rfl))) (n := n) ?_⟩
  · rcases k2 with ⟨_, h1, _⟩ | ⟨_, h1, h2⟩
    · cases h1
    · cases h1; exact h2
  · simp only [runOp, runEdit, hl]; rfl

theorem made_get (hU : Universe E U) (hV : ∀ {q c p v a}, V q c p v a → Inst E U q c p v a) {v v' x : Val} {as : List AVal} {a : AVal} {n k : Nat}
    (hcl : E.cls c = .seqOf proto bad false (some ch)) (h : MadeFrom E U V q c p v (.list as)) (ha : as[k]? = some a)
    (hx : getItem E (ops E n) v k = .ok (x, v')) : Denotes E ch {} x a ∧ MadeFrom E U V q c p v' (.list as) := by
  have hlt := (List.getElem?_eq_some_iff.mp ha).1
  obtain ⟨hg', hr'⟩ := madeFrom_rep hU hV (.element h hcl ha hx)
  refine ⟨rep_denotes hU hg' hr', .op h (.edit (.get (.inr rfl) hlt)) (n := n) ?_⟩
  simp only [runOp, runEdit, hx]; rfl

theorem made_iter (hU : Universe E U) (hV : ∀ {q c p v a}, V q c p v a → Inst E U q c p v a) (hcl : E.cls c = .seqOf proto bad false (some ch)) {n : Nat}
    {as : List AVal} : ∀ (m k : Nat) {v v' : Val} {xs : List Val}, k + m = as.length → MadeFrom E U V q c p v (.list as) →
    iterFrom E (ops E n) m k v = .ok (xs, v') → List.Forall₂ (fun x a => Denotes E ch {} x a) xs (as.drop k) ∧ MadeFrom E U V q c p v' (.list as)
  | 0, k, v, v', xs, hk, h, hx => by
    cases hx
    rw [List.drop_eq_nil_of_le (by omega)]
    exact ⟨.nil, h⟩
  | m + 1, k, v, v', xs, hk, h, hx => by
    simp only [iterFrom, bind, Except.bind] at hx
    cases h1 : getItem E (ops E n) v k with
    | error e => rw [h1] at hx; cases hx
    | ok y =>
      obtain ⟨x, w⟩ := y
      rw [h1] at hx
      simp only at hx
      cases h2 : iterFrom E (ops E n) m (k + 1) w with
      | error e => rw [h2] at hx; cases hx
      | ok y =>
        obtain ⟨xs', w'⟩ := y
        rw [h2] at hx
        cases hx
        have hlt : k < as.length := by omega
        obtain ⟨k1, k2⟩ := made_get hU hV hcl h (List.getElem?_eq_getElem hlt) h1
        obtain ⟨k3, k4⟩ := made_iter hU hV hcl m (k + 1) (by omega) k2 h2
        rw [List.drop_eq_getElem_cons hlt]
        exact ⟨.cons k1 k3, k4⟩

theorem runList_made (hU : Universe E U) (hV : ∀ {q c p v a}, V q c p v a → Inst E U q c p v a) (hcl : E.cls c = .seqOf proto bad false (some ch)) {n : Nat}
    {as bs : List AVal} {o : ListOp} {w : Want} {v v' : Val} {g : Got} (h : MadeFrom E U V q c p v (.list as)) (hl : Listed E V c ch as o bs w)
    (hx : runList E (ops E n) o v = .ok (g, v')) : Answers E ch g w ∧ MadeFrom E U V q c p v' (.list bs) := by
  have edit : ∀ {e : Edit} {v v' : Val} {as bs : List AVal}, MadeFrom E U V q c p v (.list as) → Edited E V c (.list as) e (.list bs) →
      runEdit E (ops E n) e v = .ok v' → MadeFrom E U V q c p v' (.list bs) := fun h he hr => .op h (.edit he) (n := n) hr
  cases hl with
  | append h1 h2 =>
    simp only [runList, bind, Except.bind] at hx
    split at hx
    · cases hx
    · rename_i w hw
      cases hx
      exact ⟨.nothing, edit h (.append hcl h1 h2) hw⟩
  | @set i k x b h1 h2 h3 =>
    simp only [runList, setAt, bind, Except.bind] at hx
    cases h4 : lenOf E (ops E n) v with
    | error e => rw [h4] at hx; cases hx
    | ok y =>
      obtain ⟨m, v1⟩ := y
      obtain ⟨rfl, k1⟩ := made_len hU hV h h4
      rw [h4] at hx
      simp only [at_ne_len h3, if_false, listPos_at.mpr h3] at hx
      split at hx
      · cases hx
      · rename_i w hw
        cases hx
        exact ⟨.nothing, edit k1 (.setElement hcl h1 h2 h3.1) hw⟩
  | @setEnd x b h1 h2 =>
    simp only [runList, setAt, bind, Except.bind] at hx
    cases h4 : lenOf E (ops E n) v with
    | error e => rw [h4] at hx; cases hx
    | ok y =>
      obtain ⟨m, v1⟩ := y
      obtain ⟨rfl, k1⟩ := made_len hU hV h h4
      rw [h4] at hx
      simp only [if_true] at hx
      split at hx
      · cases hx
      · rename_i w hw
        cases hx
        exact ⟨.nothing, edit k1 (.setEnd hcl h1 h2) hw⟩
  | @del i k h3 =>
    simp only [runList, delAt, bind, Except.bind] at hx
    cases h4 : lenOf E (ops E n) v with
    | error e => rw [h4] at hx; cases hx
    | ok y =>
      obtain ⟨m, v1⟩ := y
      obtain ⟨rfl, k1⟩ := made_len hU hV h h4
      rw [h4] at hx
      simp only [listPos_at.mpr h3] at hx
      split at hx
      · cases hx
      · rename_i w hw
        cases hx
        exact ⟨.nothing, edit k1 (.delElement hcl h3.1) hw⟩
  | @get i k a h3 ha =>
    simp only [runList, getAt, bind, Except.bind] at hx
    cases h4 : lenOf E (ops E n) v with
    | error e => rw [h4] at hx; cases hx
    | ok y =>
      obtain ⟨m, v1⟩ := y
      obtain ⟨rfl, k1⟩ := made_len hU hV h h4
      rw [h4] at hx
      simp only [listPos_at.mpr h3] at hx
      split at hx
      · cases hx
      · rename_i w hw
        cases hx
        obtain ⟨k2, k3⟩ := made_get hU hV hcl k1 ha hw
        exact ⟨.item k2, k3⟩
  | len =>
    simp only [runList, bind, Except.bind] at hx
    split at hx
    · cases hx
    · rename_i w hw
      obtain ⟨m, v1⟩ := w
      cases hx
      obtain ⟨rfl, k1⟩ := made_len hU hV h hw
      exact ⟨.num, k1⟩
  | iter =>
    simp only [runList, iterItems, bind, Except.bind] at hx
    cases h4 : lenOf E (ops E n) v with
    | error e => rw [h4] at hx; cases hx
    | ok y =>
      obtain ⟨m, v1⟩ := y
      obtain ⟨rfl, k1⟩ := made_len hU hV h h4
      rw [h4] at hx
      simp only at hx
      split at hx
      · cases hx
      · rename_i w hw
        cases hx
        obtain ⟨k2, k3⟩ := made_iter hU hV hcl as.length 0 (by omega) k1 hw
        exact ⟨.items (by simpa using k2), k3⟩
  | other h1 =>
    simp only [runList, bind, Except.bind] at hx
    split at hx
    · cases hx
    · rename_i w hw
      cases hx
      exact ⟨.nothing, .op h h1 hw⟩

theorem runLists_made (hU : Universe E U) (hV : ∀ {q c p v a}, V q c p v a → Inst E U q c p v a) (hcl : E.cls c = .seqOf proto bad false (some ch)) {n : Nat}
    {as as' : List AVal} {os : List ListOp} {ws : List Want} (hh : ListHistory E V c ch as os as' ws) : ∀ {v v' : Val} {gs : List Got},
    MadeFrom E U V q c p v (.list as) → runLists E (ops E n) os v = .ok (gs, v') →
    List.Forall₂ (Answers E ch) gs ws ∧ MadeFrom E U V q c p v' (.list as') := by
  induction hh with
  | nil => intro v v' gs h hx; cases hx; exact ⟨.nil, h⟩
  | cons h1 h2 h3 ih =>
    rename_i o os w ws
    intro v v' gs h hx
    simp only [runLists, bind, Except.bind] at hx
    cases h4 : runList E (ops E n) o v with
    | error e => rw [h4] at hx; cases hx
    | ok y =>
      obtain ⟨g, v1⟩ := y
      rw [h4] at hx
      simp only at hx
      cases h5 : runLists E (ops E n) os v1 with
      | error e => rw [h5] at hx; cases hx
      | ok y =>
        obtain ⟨gs', v2⟩ := y
        rw [h5] at hx
        cases hx
        obtain ⟨k1, k2⟩ := runList_made hU hV hcl h h1 h4
        obtain ⟨k3, k4⟩ := ih k2 h5
        exact ⟨.cons k1 k3, k4⟩

/-! ### Success -/

theorem iterFrom_ok (hU : Universe E U) {n : Nat} (hn : 2 ≤ n) {as : List AVal} (hc : U c) : ∀ (m k : Nat) {v : Val}, k + m = as.length →
    Rep E q c p v (.list as) → ∃ y, iterFrom E (ops E n) m k v = .ok y
  | 0, k, v, hk, h => ⟨_, rfl⟩
  | m + 1, k, v, hk, h => by
    obtain ⟨⟨x, w⟩, h1⟩ := getItem_ok hU hn hc h (.inr rfl) (idx := k) (by omega)
    obtain ⟨_, _, _, _, _, k3, _⟩ := getItem_rep hU (sim_ops hU n) hc h h1
    obtain ⟨⟨xs, w'⟩, h2⟩ := iterFrom_ok hU hn hc m (k + 1) (by omega) k3
    exact ⟨(x :: xs, w'), by simp only [iterFrom, bind, Except.bind, h1, h2]⟩

theorem len_split (hU : Universe E U) {n : Nat} (hn : 2 ≤ n) {v : Val} {as : List AVal} (hc : U c) (h : Rep E q c p v (.list as)) :
    ∃ v1, lenOf E (ops E n) v = .ok (as.length, v1) ∧ Rep E q c p v1 (.list as) := by
  obtain ⟨n, rfl⟩ : ∃ k, n = k + 1 := ⟨n - 1, by omega⟩
  obtain ⟨⟨m, v1⟩, h4⟩ := lenOf_ok hU (n := n) hc h (.inr rfl)
  obtain ⟨k1, _, k2⟩ := lenOf_rep hU (sim_ops hU _) hc h h4
  rcases k2 with ⟨_, h1, _⟩ | ⟨_, h1, rfl⟩
  · cases h1
  · cases h1; exact ⟨v1, h4, k1⟩

theorem runList_works (hU : Universe E U) {N n : Nat} (hW : Working E U N (ops E n)) (hn : 2 ≤ n) (hcl : E.cls c = .seqOf proto bad false (some ch))
    {as bs : List AVal} {o : ListOp} {w : Want} {v : Val} (hg : GoodUse E U c p) (h : Rep E q c p v (.list as))
    (hl : Listed E (Inst E U) c ch as o bs w) (hr : Ready E c (.list bs)) (hd : (AVal.list bs).depth < N) : Works (runList E (ops E n) o v) := by
  have edit : ∀ {e : Edit} {v : Val} {as bs : List AVal}, Rep E q c p v (.list as) → Edited E (Inst E U) c (.list as) e (.list bs) →
      Ready E c (.list bs) → (AVal.list bs).depth < N → Works (runEdit E (ops E n) e v) :=
    fun h he hr hd => runEdit_works hU hW hn _ hg.mem h he hr (by omega)
  obtain ⟨v1, h4, k1⟩ := len_split hU hn hg.mem h
  cases hl with
  | @append x _ h1 h2 => exact Works.bind (x := appendItem E (ops E n) v x) (edit h (.append hcl h1 h2) hr hd) (fun _ _ => .ok rfl)
  | @set i k x b h1 h2 h3 =>
    refine Works.bind (x := setAt E (ops E n) v i x) ?_ (fun _ _ => .ok rfl)
    simp only [setAt, bind, Except.bind, h4, at_ne_len h3, if_false, listPos_at.mpr h3]
    exact edit k1 (.setElement hcl h1 h2 h3.1) hr hd
  | @setEnd x b h1 h2 =>
    refine Works.bind (x := setAt E (ops E n) v as.length x) ?_ (fun _ _ => .ok rfl)
    simp only [setAt, bind, Except.bind, h4, if_true]
    exact edit k1 (.setEnd hcl h1 h2) hr hd
  | @del i k h3 =>
    refine Works.bind (x := delAt E (ops E n) v i) ?_ (fun _ _ => .ok rfl)
    simp only [delAt, bind, Except.bind, h4, listPos_at.mpr h3]
    exact edit k1 (.delElement hcl h3.1) hr hd
  | @get i k a h3 ha =>
    refine Works.bind (x := getAt E (ops E n) v i) ?_ (fun _ _ => .ok rfl)
    simp only [getAt, bind, Except.bind, h4, listPos_at.mpr h3]
    obtain ⟨y, hy⟩ := getItem_ok hU hn hg.mem k1 (.inr rfl) h3.1
    exact .ok hy
  | len => exact Works.bind (x := lenOf E (ops E n) v) (.ok h4) (fun _ _ => .ok rfl)
  | iter =>
    refine Works.bind (x := iterItems E (ops E n) v) ?_ (fun _ _ => .ok rfl)
    simp only [iterItems, bind, Except.bind, h4]
    obtain ⟨y, hy⟩ := iterFrom_ok hU hn hg.mem as.length 0 (by omega) k1
    exact .ok hy
  | @other _ o h1 =>
    exact Works.bind (x := runOp E (ops E n) o v) (runOp_works hU hW hn hg h h1 hr (fun _ => whole_list) hd) (fun _ _ => .ok rfl)

theorem listed_mono {W : Bool → ClassId → Params → Val → AVal → Prop} (hVW : ∀ {q c p v a}, V q c p v a → W q c p v a) {as bs : List AVal} {o : ListOp}
    {w : Want} (h : Listed E V c ch as o bs w) : Listed E W c ch as o bs w := by
  cases h with
  | append h1 h2 => exact .append (conv_mono hVW h1) h2
  | set h1 h2 h3 => exact .set (conv_mono hVW h1) h2 h3
  | setEnd h1 h2 => exact .setEnd (conv_mono hVW h1) h2
  | del h => exact .del h
  | get h1 h2 => exact .get h1 h2
  | len => exact .len
  | iter => exact .iter
  | other h => exact .other (after_mono hVW h)

theorem listHistory_mono {W : Bool → ClassId → Params → Val → AVal → Prop} (hVW : ∀ {q c p v a}, V q c p v a → W q c p v a) {as as' : List AVal}
    {os : List ListOp} {ws : List Want} (h : ListHistory E V c ch as os as' ws) : ListHistory E W c ch as os as' ws := by
  induction h with
  | nil => exact .nil
  | cons h1 h2 _ ih => exact .cons (listed_mono hVW h1) h2 ih

theorem runLists_works (hU : Universe E U) (hV : ∀ {q c p v a}, V q c p v a → Inst E U q c p v a) (hcl : E.cls c = .seqOf proto bad false (some ch))
    {as as' : List AVal} {os : List ListOp} {ws : List Want} (hh : ListHistory E V c ch as os as' ws) :
    ∃ n0, ∀ n, n0 ≤ n → ∀ {v : Val}, MadeFrom E U V q c p v (.list as) → Works (runLists E (ops E n) os v) := by
  induction hh with
  | nil => exact ⟨0, fun n _ v _ => .ok rfl⟩
  | @cons as bs as' o os w ws h1 h2 h3 ih =>
    obtain ⟨n0, ih⟩ := ih
    refine ⟨max n0 ((AVal.list bs).depth + 3), fun n hn v h => ?_⟩
    obtain ⟨hg, hr⟩ := madeFrom_rep hU hV h
    refine Works.bind (x := runList E (ops E n) o v)
      (runList_works hU (working_ops hU (N := (AVal.list bs).depth + 1) (by omega)) (by omega) hcl hg hr (listed_mono hV h1) h2 (by omega)) ?_
    rintro ⟨g, v1⟩ hx
    exact Works.bind (x := runLists E (ops E n) os v1) (ih n (by omega) (runList_made hU hV hcl h h1 hx).2) (fun _ _ => .ok rfl)

end

end Asn1
