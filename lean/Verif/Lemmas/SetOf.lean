import Verif.Lemmas.Elements
import Verif.Lemmas.Keep
import Verif.Spec.SetOf

/-!
# Lemmas for the encoding of SetOf and SequenceOf values
-/

namespace Asn1
open Spec

theorem bytesLe_iff : ∀ (a b : Bytes), bytesLe a b = true ↔ OctetLe a b
  | [], b => by simp [bytesLe, OctetLe]
  | x :: as, [] => by
    simp only [bytesLe, OctetLe, Bool.false_eq_true, false_iff]
    rintro (h | ⟨pre, _, _, _, _, _, h, _⟩)
    · simp at h
    · cases pre <;> cases h
  | x :: as, y :: bs => by
    rw [bytesLe]
    by_cases h1 : x < y
    · simp only [if_pos h1, true_iff]
      exact .inr ⟨[], as, bs, x, y, rfl, rfl, h1⟩
    · by_cases h2 : y < x
      · simp only [if_neg h1, if_pos h2, Bool.false_eq_true, false_iff]
        rintro (h | ⟨pre, as', bs', x', y', h, h', hl⟩)
        · have := (List.cons_prefix_cons.mp h).1
          subst this
          exact h1 h2
        · cases pre with
          | nil => cases h; cases h'; exact h1 hl
          | cons z pre => cases h; cases h'; exact h1 h2
      · have hxy : x = y := UInt8.le_antisymm (UInt8.not_lt.mp h2) (UInt8.not_lt.mp h1)
        subst hxy
        simp only [if_neg h1]
        rw [bytesLe_iff as bs]
        constructor
        · rintro (h | ⟨pre, as', bs', x', y', h, h', hl⟩)
          · exact .inl (List.cons_prefix_cons.mpr ⟨rfl, h⟩)
          · exact .inr ⟨x :: pre, as', bs', x', y', by rw [h]; rfl, by rw [h']; rfl, hl⟩
        · rintro (h | ⟨pre, as', bs', x', y', h, h', hl⟩)
          · exact .inl (List.cons_prefix_cons.mp h).2
          · cases pre with
            | nil => cases h; cases h'; exact absurd hl h1
            | cons z pre => cases h; cases h'; exact .inr ⟨pre, as', bs', x', y', rfl, rfl, hl⟩

theorem bytesLe_total : ∀ (a b : Bytes), (bytesLe a b || bytesLe b a) = true
  | [], _ => rfl
  | _ :: _, [] => by simp [bytesLe]
  | x :: as, y :: bs => by
    rw [bytesLe, bytesLe]
    by_cases h1 : x < y
    · simp only [if_pos h1, Bool.true_or]
    · by_cases h2 : y < x
      · simp only [if_pos h2, Bool.or_true]
      · simp only [if_neg h1, if_neg h2]
        exact bytesLe_total as bs

theorem bytesLe_trans : ∀ (a b c : Bytes), bytesLe a b = true → bytesLe b c = true → bytesLe a c = true
  | [], _, _, _, _ => rfl
  | _ :: _, [], _, h, _ => by cases h
  | _ :: _, _ :: _, [], _, h => by cases h
  | x :: as, y :: bs, z :: cs, h1, h2 => by
    rw [bytesLe] at h1 h2 ⊢
    split at h1
    · next a =>
      split at h2
      · next b => rw [if_pos (UInt8.lt_trans a b)]
      · next b =>
        split at h2
        · cases h2
        · next d =>
          have : y = z := UInt8.le_antisymm (UInt8.not_lt.mp d) (UInt8.not_lt.mp b)
          subst this
          rw [if_pos a]
    · next a =>
      split at h1
      · cases h1
      · next a' =>
        have : x = y := UInt8.le_antisymm (UInt8.not_lt.mp a') (UInt8.not_lt.mp a)
        subst this
        split at h2
        · next b => rw [if_pos b]
        · next b =>
          split at h2
          · cases h2
          · next b' => rw [if_neg b, if_neg b']; exact bytesLe_trans as bs cs h1 h2

theorem bytesLe_antisymm : ∀ (a b : Bytes), bytesLe a b = true → bytesLe b a = true → a = b
  | [], [], _, _ => rfl
  | [], _ :: _, _, h => by cases h
  | _ :: _, [], h, _ => by cases h
  | x :: as, y :: bs, h1, h2 => by
    rw [bytesLe] at h1 h2
    split at h1
    · next a =>
      rw [if_neg (fun b => UInt8.lt_irrefl x (UInt8.lt_trans a b)), if_pos a] at h2
      cases h2
    · next a =>
      split at h1
      · cases h1
      · next b =>
        rw [if_neg b, if_neg a] at h2
        rw [UInt8.le_antisymm (UInt8.not_lt.mp b) (UInt8.not_lt.mp a), bytesLe_antisymm as bs h1 h2]

theorem sort_pairwise (bs : List Bytes) : (bs.mergeSort bytesLe).Pairwise (fun a b => bytesLe a b = true) :=
  List.pairwise_mergeSort (le := bytesLe) (fun a b c => bytesLe_trans a b c) bytesLe_total bs

theorem sort_ascending (bs : List Bytes) : Ascending bs (bs.mergeSort bytesLe) :=
  ⟨List.mergeSort_perm bs bytesLe, (sort_pairwise bs).imp (fun h => (bytesLe_iff _ _).mp h)⟩

theorem Spec.Ascending.unique {vs ws ws' : List Bytes} (h : Ascending vs ws) (h' : Ascending vs ws') : ws = ws' :=
  (h.1.trans h'.1.symm).eq_of_pairwise
    (fun _ _ _ _ a b => bytesLe_antisymm _ _ ((bytesLe_iff _ _).mpr a) ((bytesLe_iff _ _).mpr b)) h.2 h'.2

theorem Spec.Ascending.perm {vs vs' ws : List Bytes} (h : Ascending vs ws) (hp : vs.Perm vs') : Ascending vs' ws := ⟨h.1.trans hp, h.2⟩

theorem sort_perm {bs bs' : List Bytes} (h : bs.Perm bs') : bs.mergeSort bytesLe = bs'.mergeSort bytesLe :=
  ((sort_ascending bs).perm h).unique (sort_ascending bs')

/-- The encoding of one element and the element afterwards. -/
def encodeElement (r : Ops) (force : Bool) (ch : Child) : Py (Bytes × Child) := do
  let v ← buildChild r {} ch
  let (b, v) ← r.dump v force
  .ok (b, .val v)

theorem encodeElements_eq (r : Ops) (force : Bool) : ∀ cs : List Child,
    encodeElements r force cs = (cs.mapM (encodeElement r force)).map (fun es => (es.map Prod.fst, es.map Prod.snd))
  | [] => rfl
  | ch :: cs => by
    rw [encodeElements, List.mapM_cons, encodeElements_eq r force cs]
    simp only [encodeElement, bind, Except.bind]
    cases buildChild r {} ch with
    | error e => rfl
    | ok v =>
      simp only
      cases r.dump v force with
      | error e => rfl
      | ok q =>
        obtain ⟨b, v⟩ := q
        simp only
        cases List.mapM (encodeElement r force) cs <;> rfl

theorem mapM_ok_cons {α β : Type} {f : α → Py β} {a : α} {as : List α} {b : β} {bs : List β} (h : f a = .ok b)
    (hs : as.mapM f = .ok bs) : (a :: as).mapM f = .ok (b :: bs) := by
  rw [List.mapM_cons, h, hs]; rfl

theorem mapM_cons_inv {α β : Type} {f : α → Py β} {a : α} {as : List α} {r : List β}
    (h : (a :: as).mapM f = .ok r) : ∃ b bs, f a = .ok b ∧ as.mapM f = .ok bs ∧ r = b :: bs := by
  rw [List.mapM_cons] at h
  cases hb : f a with
  | error x => rw [hb] at h; simp [bind, Except.bind] at h
  | ok b =>
    cases hbs : as.mapM f with
    | error x => rw [hb, hbs] at h; simp [bind, Except.bind] at h
    | ok bs =>
      rw [hb, hbs] at h
      injection h with h
      exact ⟨b, bs, rfl, rfl, h.symm⟩

theorem mapM_perm {α β : Type} {f : α → Py β} {as as' : List α} (h : as.Perm as') : ∀ {bs : List β}, as.mapM f = .ok bs →
    ∃ bs', as'.mapM f = .ok bs' ∧ bs.Perm bs' := by
  induction h with
  | nil => intro bs hb; exact ⟨bs, hb, .refl _⟩
  | cons a _ ih =>
    intro bs hb
    obtain ⟨b, bs1, h1, h2, rfl⟩ := mapM_cons_inv hb
    obtain ⟨bs2, h3, h4⟩ := ih h2
    exact ⟨b :: bs2, mapM_ok_cons h1 h3, h4.cons b⟩
  | swap a a' l =>
    intro bs hb
    obtain ⟨b, bs1, h1, h2, rfl⟩ := mapM_cons_inv hb
    obtain ⟨b', bs2, h3, h4, rfl⟩ := mapM_cons_inv h2
    exact ⟨b' :: b :: bs2, mapM_ok_cons h3 (mapM_ok_cons h1 h4), .swap _ _ _⟩
  | trans _ _ ih1 ih2 =>
    intro bs hb
    obtain ⟨bs1, h1, h2⟩ := ih1 hb
    obtain ⟨bs2, h3, h4⟩ := ih2 h1
    exact ⟨bs2, h3, h2.trans h4⟩

theorem mapM_append_ok {α β : Type} {f : α → Py β} : ∀ {as as' : List α} {bs bs' : List β}, as.mapM f = .ok bs → as'.mapM f = .ok bs' →
    (as ++ as').mapM f = .ok (bs ++ bs')
  | [], _, bs, _, h, h' => by
    rw [List.mapM_nil] at h
    injection h with h
    subst h; exact h'
  | _ :: _, _, _, _, h, h' => by
    obtain ⟨b, bs1, h1, h2, rfl⟩ := mapM_cons_inv h
    exact mapM_ok_cons h1 (mapM_append_ok h2 h')

/-! ### Constructing from a list -/

section
variable (E : Env) (r : Ops) {c : ClassId} {proto : Obj Unit} {bad : List Nat} {isSet : Bool} {child : ClassId}

theorem setFromList_eq (hE : E.cls c = .seqOf proto bad isSet (some child)) (o : Obj Unit) : ∀ (xs : List PyVal) (cs : List Child)
    (ch : Option (List Child)) (m : Bool), ensureChildren E r c o ch = .ok cs → xs ≠ [] →
    setFromList E r xs cs.length (.node c o ch m) =
      (xs.mapM (makeElement E r child)).map (fun vs => .node c o (some (cs ++ vs.map .val)) true)
  | [], _, _, _, _, h => absurd rfl h
  | x :: xs, cs, ch, m, hc, _ => by
    rw [setFromList, List.mapM_cons]
    simp only [setElement, hE, bind, Except.bind, hc]
    cases hx : makeElement E r child x with
    | error e => rfl
    | ok v =>
      simp only [if_pos]
      cases xs with
      | nil => rfl
      | cons y ys =>
        have := setFromList_eq hE o (y :: ys) (cs ++ [.val v]) (some (cs ++ [.val v])) true rfl (by simp)
        rw [List.length_append] at this
        rw [show cs.length + 1 = cs.length + [Child.val v].length from rfl, this]
        cases List.mapM (makeElement E r child) (y :: ys) with
        | error e => rfl
        | ok vs => simp [Except.map, pure, Except.pure]

theorem construct_list (hE : E.cls c = .seqOf proto bad isSet (some child)) (hn : proto.contents = none) (p : Params) (hd : p.default = none)
    (xs : List PyVal) :
    constructStep E r c p (.list xs) = (xs.mapM (makeElement E r child)).bind (fun vs =>
      (encodeChildren E r c false (vs.map .val)).map (fun q =>
        .node c { initTagging proto p.tags with contents := some q.1, header := none, trailer := [] } (some q.2) false)) := by
  have hi : (initTagging proto p.tags).contents = none := by rw [initTagging_eq]; exact hn
  have hg : givenValue none (.list xs) = .list xs := rfl
  have hens : ensureChildren E r c (initTagging proto p.tags) none = .ok [] := by
    simp only [ensureChildren, parseChildren, hE, hi, parseSeqOf]
  simp only [constructStep, hE, hd, hg]
  cases xs with
  | nil =>
    simp only [setFromList, bind, Except.bind, contentsStep, nodeContents, hi, setContents, hens, List.mapM_nil, pure, Except.pure, List.map_nil]
    cases encodeChildren E r c false [] <;> rfl
  | cons x xs =>
    have := setFromList_eq E r hE (initTagging proto p.tags) (x :: xs) [] none false hens (by simp)
    rw [List.length_nil] at this
    rw [this]
    cases List.mapM (makeElement E r child) (x :: xs) with
    | error e => rfl
    | ok vs =>
      simp only [Except.map, bind, Except.bind, List.nil_append, contentsStep, nodeContents, Val.isMutated, Bool.true_or, if_true, setContents, ensureChildren]
      cases encodeChildren E r c false (vs.map .val) <;> rfl

end

end Asn1
