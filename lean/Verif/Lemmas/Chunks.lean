import Verif.Lemmas.Bits
import Verif.Lemmas.Obj
import Verif.Lemmas.Integer
import Mathlib.Data.List.Forall2

/-! # Lemmas on merging the chunks of constructed strings -/

namespace Asn1
open Spec

variable {β ν : Type}

/-- One child of a constructed string with its leaves. -/
def ChunkItem (tag : Nat) (v : TLV) (ls : List Bytes) : Prop :=
  Ber 11 v ∧ v.cls = 0 ∧ v.tag = tag ∧
    ((v.method = 0 ∧ ls = [v.contents]) ∨ (v.method = 1 ∧ v.trailer = [0, 0] ∧ Chunks tag v.contents ls))

theorem chunks_iff (tag : Nat) (c : Bytes) (ls : List Bytes) :
    Chunks tag c ls ↔ ∃ items : List (TLV × List Bytes), c = (items.map (fun x => x.1.bytes)).flatten ∧
      ls = (items.map Prod.snd).flatten ∧ ∀ x ∈ items, ChunkItem tag x.1 x.2 := by
  constructor
  · intro h
    induction h with
    | nil => exact ⟨[], rfl, rfl, by simp⟩
    | @prim v rest ls h1 h2 h3 h4 _ ih =>
      obtain ⟨items, rfl, rfl, hi⟩ := ih
      refine ⟨(v, [v.contents]) :: items, rfl, by simp, ?_⟩
      intro x hx
      rcases List.mem_cons.mp hx with rfl | hx
      · exact ⟨h1, h2, h4, Or.inl ⟨h3, rfl⟩⟩
      · exact hi x hx
    | @constructed v rest ks ls h1 h2 h3 h4 h5 h6 _ _ ih =>
      obtain ⟨items, rfl, rfl, hi⟩ := ih
      refine ⟨(v, ks) :: items, rfl, by simp, ?_⟩
      intro x hx
      rcases List.mem_cons.mp hx with rfl | hx
      · exact ⟨h1, h2, h4, Or.inr ⟨h3, h5, h6⟩⟩
      · exact hi x hx
  · rintro ⟨items, rfl, rfl, hi⟩
    induction items with
    | nil => exact .nil
    | cons x xs ih =>
      obtain ⟨h1, h2, h3, h4⟩ := hi x (by simp)
      have ih := ih (fun y hy => hi y (by simp [hy]))
      simp only [List.map_cons, List.flatten_cons]
      rcases h4 with ⟨h4, h5⟩ | ⟨h4, h5, h6⟩
      · rw [h5]
        exact .prim h1 h2 h4 h3 ih
      · exact .constructed h1 h2 h4 h3 h5 h6 ih

theorem Ident_length_pos {bs : Bytes} {c m t : Nat} (h : Ident bs c m t) : 1 ≤ bs.length := by
  rcases h.2.2 with ⟨_, rfl⟩ | ⟨_, gs, rfl, _⟩ <;> simp

theorem DefLen_length_pos {bs : Bytes} {n : Nat} (h : DefLen bs n) : 1 ≤ bs.length := by
  rcases h with ⟨_, rfl⟩ | ⟨ds, _, _, rfl, _⟩ <;> simp

theorem forall2_append_left {α γ : Type} {R : α → γ → Prop} {a b : List α} {c : List γ} (h : List.Forall₂ R (a ++ b) c) :
    ∃ x y, List.Forall₂ R a x ∧ List.Forall₂ R b y ∧ c = x ++ y := by
  induction a generalizing c with
  | nil => exact ⟨[], c, .nil, h, rfl⟩
  | cons z zs ih =>
    cases h with
    | cons h1 h2 =>
      obtain ⟨x, y, e1, e2, rfl⟩ := ih h2
      exact ⟨_ :: x, y, .cons h1 e1, e2, rfl⟩

theorem Ber_bytes_pos {n : Nat} {v : TLV} (h : Ber n v) : v.contents.length + 2 ≤ v.bytes.length := by
  cases h with
  | definite h1 h2 =>
    have a := Ident_length_pos h1
    have b := DefLen_length_pos h2
    simp [TLV.bytes]; omega
  | indefinite vs h1 _ _ =>
    simp [TLV.bytes]; omega

theorem chunkLoop_ok_iff (step : Info → Py (List β)) (data : Bytes) : ∀ (fuel p : Nat) (out res : Option (List β)),
    p ≤ data.length → data.length - p < fuel →
    (chunkLoop step data fuel p out = .ok res ↔
      ∃ items : List (Info × List β), data.drop p = (items.map (fun x => x.1.tlv.bytes)).flatten ∧
        (∀ x ∈ items, Ber 11 x.1.tlv ∧ step x.1 = .ok x.2) ∧
        res = (if items = [] then out else some (out.getD [] ++ (items.map Prod.snd).flatten))) := by
  intro fuel
  induction fuel with
  | zero => intro p out res _ h; omega
  | succ fuel ih =>
    intro p out res hp hf
    rw [chunkLoop]
    by_cases hlt : p < data.length
    · rw [if_pos hlt]
      constructor
      · intro h
        cases hpf : parseFrom data data.length p with
        | error e => rw [hpf] at h; cases h
        | ok r =>
          rw [hpf] at h
          simp only [bind, Except.bind] at h
          cases hs : step r.1 with
          | error e => rw [hs] at h; cases h
          | ok v =>
            rw [hs] at h
            simp only at h
            obtain ⟨i, e⟩ := r
            obtain ⟨rest, h1, h2, h3⟩ := (parseFrom_ok_iff data p hp i e).mp hpf
            have hpos := Ber_bytes_pos h2
            have hlen := congrArg List.length h1
            rw [List.length_drop, List.length_append] at hlen
            obtain ⟨items, hi1, hi2, hi3⟩ := (ih e _ res (by omega) (by omega)).mp h
            refine ⟨(i, v) :: items, ?_, ?_, ?_⟩
            · have : data.drop e = rest := by
                rw [h3, ← List.drop_drop, h1, List.drop_left]
              rw [h1, ← this, hi1]
              rfl
            · intro x hx
              rcases List.mem_cons.mp hx with rfl | hx
              · exact ⟨h2, hs⟩
              · exact hi2 x hx
            · rw [hi3]
              cases out <;> cases items <;> simp
      · rintro ⟨items, hi1, hi2, hi3⟩
        cases items with
        | nil =>
          have := congrArg List.length hi1
          simp at this; omega
        | cons x xs =>
          obtain ⟨i, v⟩ := x
          obtain ⟨hb, hs⟩ := hi2 (i, v) (by simp)
          have hpos := Ber_bytes_pos hb
          simp only at hb hs hpos
          simp only [List.map_cons, List.flatten_cons] at hi1
          have hlen := congrArg List.length hi1
          rw [List.length_drop, List.length_append] at hlen
          have hpf := (parseFrom_ok_iff data p hp i (p + i.tlv.bytes.length)).mpr ⟨_, hi1, hb, rfl⟩
          rw [hpf]
          simp only [bind, Except.bind]
          rw [hs]
          simp only
          rw [ih _ _ res (by omega) (by omega)]
          refine ⟨xs, ?_, fun y hy => hi2 y (by simp [hy]), ?_⟩
          · rw [← List.drop_drop, hi1, List.drop_left]
          · rw [hi3]
            cases out <;> cases xs <;> simp
    · rw [if_neg hlt]
      have hd : data.drop p = [] := List.drop_eq_nil_of_le (by omega)
      rw [hd]
      simp only [Except.ok.injEq]
      constructor
      · rintro rfl
        exact ⟨[], rfl, by simp, by simp⟩
      · rintro ⟨items, h1, h2, h3⟩
        cases items with
        | nil => simpa using h3.symm
        | cons x xs =>
          exfalso
          have hpos := Ber_bytes_pos (h2 x (by simp)).1
          have := congrArg List.length h1
          simp at this
          omega

theorem chunkLoop_error (step : Info → Py (List β)) (data : Bytes) (P : PyErr → Prop) (hP : P .valueError)
    (hstep : ∀ i e, i.contents.length < data.length → step i = .error e → P e) : ∀ (fuel p : Nat) (out : Option (List β)) (e : PyErr),
    p ≤ data.length → data.length - p < fuel → chunkLoop step data fuel p out = .error e → P e := by
  intro fuel
  induction fuel with
  | zero => intro p out res _ h; omega
  | succ fuel ih =>
    intro p out e hp hf h
    rw [chunkLoop] at h
    by_cases hlt : p < data.length
    · rw [if_pos hlt] at h
      cases hpf : parseFrom data data.length p with
      | error e' =>
        rw [hpf] at h
        injection h with h
        rw [← h, parseFrom_error data p hp _ hpf]
        exact hP
      | ok r =>
        rw [hpf] at h
        obtain ⟨i, q⟩ := r
        obtain ⟨rest, h1, h2, h3⟩ := (parseFrom_ok_iff data p hp i q).mp hpf
        have hpos := Ber_bytes_pos h2
        have hlen := congrArg List.length h1
        rw [List.length_drop, List.length_append] at hlen
        simp only [bind, Except.bind] at h
        cases hs : step i with
        | error e' =>
          rw [hs] at h
          injection h with h
          rw [← h]
          have : i.contents.length < data.length := by
            have : i.tlv.contents.length = i.contents.length := rfl
            omega
          exact hstep i e' this hs
        | ok v =>
          rw [hs] at h
          exact ih _ _ _ (by omega) (by omega) h
    · rw [if_neg hlt] at h
      cases h

/-- A class prototype of a universal primitive type without tagging. -/
structure Plain (p : Obj ν) (tag : Nat) : Prop where
  isProto : p = p.proto
  cls : p.cls = 0
  method : p.method = 0
  tag : p.tag = tag
  explicit : p.explicit = []

theorem Plain.blank {p : Obj ν} {tag : Nat} (h : Plain p tag) : Blank p :=
  ⟨h.isProto, by rw [h.cls]; decide, h.method, by rw [h.explicit]; simp⟩

theorem Plain.build {p : Obj ν} {tag : Nat} (h : Plain p tag) {k : Bool} (i : Info) (o : Obj ν) :
    buildObj k [] p i = .ok o ↔ i.cls = 0 ∧ i.tag = tag ∧
      ((i.method = 0 ∧ o = { p with header := some i.header, contents := some i.contents, trailer := i.trailer, native := none }) ∨
       (i.method = 1 ∧ i.trailer = [0, 0] ∧ k = true ∧
         o = { p with header := some i.header, contents := some i.contents, trailer := i.trailer, native := none,
                      method := 1, indefinite := true })) := by
  have hb : buildObj k [] p i = buildBase k [] p i := by
    unfold buildObj
    simp only [h.explicit]
  rw [hb, buildBase_ok]
  have h1 := h.cls
  have h2 := h.tag
  have h3 := h.method
  constructor
  · rintro ⟨a, b, ⟨c, d⟩ | ⟨c, d, e, f, g⟩⟩
    · exact ⟨by omega, by simpa [h2] using b, Or.inl ⟨by omega, d⟩⟩
    · exact ⟨by omega, by simpa [h2] using b, Or.inr ⟨c, e, f, g⟩⟩
  · rintro ⟨a, b, ⟨c, d⟩ | ⟨c, e, f, g⟩⟩
    · exact ⟨by omega, Or.inl (by omega), Or.inl ⟨by omega, d⟩⟩
    · exact ⟨by omega, Or.inl (by omega), Or.inr ⟨c, h3, e, f, g⟩⟩

theorem Plain.indef {p : Obj ν} {tag : Nat} (h : Plain p tag) : p.indefinite = false := by rw [h.isProto]; rfl

/-- The recursive step of `mergeChunks`. -/
def mergeStep (asChunk : Bool → Bytes → Py (List β)) (p : Obj ν) (fuel : Nat) (i : Info) : Py (List β) := do
  let o ← buildObj true [] p i
  match o.contents with
  | none => .error .typeError
  | some c => mergeChunks asChunk p fuel o.indefinite c

theorem mergeStep_ok_iff {asChunk : Bool → Bytes → Py (List β)} {p : Obj ν} {tag : Nat} (h : Plain p tag) (fuel : Nat) (i : Info)
    (v : List β) : mergeStep asChunk p fuel i = .ok v ↔ i.cls = 0 ∧ i.tag = tag ∧
      ((i.method = 0 ∧ asChunk false i.contents = .ok v) ∨
       (i.method = 1 ∧ i.trailer = [0, 0] ∧ mergeChunks asChunk p fuel true i.contents = .ok v)) := by
  unfold mergeStep
  have hfalse : ∀ c, mergeChunks asChunk p fuel false c = asChunk false c := by
    intro c; cases fuel <;> rfl
  constructor
  · intro hm
    cases hb : buildObj true [] p i with
    | error e => rw [hb] at hm; cases hm
    | ok o =>
      rw [hb] at hm
      simp only [bind, Except.bind] at hm
      obtain ⟨h1, h2, h3⟩ := (h.build i o).mp hb
      refine ⟨h1, h2, ?_⟩
      rcases h3 with ⟨h3, rfl⟩ | ⟨h3, h4, _, rfl⟩
      · simp only [h.indef, hfalse] at hm
        exact Or.inl ⟨h3, hm⟩
      · exact Or.inr ⟨h3, h4, hm⟩
  · rintro ⟨h1, h2, ⟨h3, h4⟩ | ⟨h3, h4, h5⟩⟩
    · rw [(h.build i _).mpr ⟨h1, h2, Or.inl ⟨h3, rfl⟩⟩]
      simp only [bind, Except.bind, h.indef, hfalse]
      exact h4
    · rw [(h.build i _).mpr ⟨h1, h2, Or.inr ⟨h3, h4, rfl, rfl⟩⟩]
      exact h5

theorem mergeChunks_true (asChunk : Bool → Bytes → Py (List β)) (p : Obj ν) (fuel : Nat) (c : Bytes) :
    mergeChunks asChunk p (fuel + 1) true c =
      (chunkLoop (mergeStep asChunk p fuel) c (c.length + 1) 0 none).bind (fun out => match out with
        | none => asChunk true c
        | some v => .ok v) := rfl

/-- The value of a constructed string is the concatenation of the values of its leaves. Needs that an empty
constructed string has the empty value. -/
theorem mergeChunks_ok_iff {asChunk : Bool → Bytes → Py (List β)} {p : Obj ν} {tag : Nat} (h : Plain p tag)
    (hempty : asChunk true [] = .ok []) : ∀ (fuel : Nat) (c : Bytes) (out : List β), c.length < fuel →
    (mergeChunks asChunk p fuel true c = .ok out ↔
      ∃ ls vs, Chunks tag c ls ∧ List.Forall₂ (fun l v => asChunk false l = .ok v) ls vs ∧ out = vs.flatten) := by
  intro fuel
  induction fuel with
  | zero => intro c out hc; omega
  | succ fuel ih =>
    intro c out hc
    rw [mergeChunks_true]
    have hl := fun res => chunkLoop_ok_iff (mergeStep asChunk p fuel) c (c.length + 1) 0 none res (Nat.zero_le _) (by omega)
    constructor
    · intro hm
      cases hcl : chunkLoop (mergeStep asChunk p fuel) c (c.length + 1) 0 none with
      | error e => rw [hcl] at hm; cases hm
      | ok res =>
        rw [hcl] at hm
        obtain ⟨items, h1, h2, h3⟩ := (hl res).mp hcl
        rw [List.drop_zero] at h1
        have key : ∃ ls vs, Chunks tag c ls ∧ List.Forall₂ (fun l v => asChunk false l = .ok v) ls vs ∧
            (items.map Prod.snd).flatten = vs.flatten := by
          have hlt : ∀ x ∈ items, x.1.contents.length < fuel := by
            intro x hx
            have hpos := Ber_bytes_pos (h2 x hx).1
            have hsub : x.1.tlv.bytes.length ≤ c.length := by
              rw [h1]
              exact List.Sublist.length_le (List.sublist_flatten_of_mem (List.mem_map.mpr ⟨x, hx, rfl⟩))
            have : x.1.tlv.contents.length = x.1.contents.length := rfl
            omega
          clear h3 hcl hm hl
          have hc' : c = (items.map (fun x => x.1.tlv.bytes)).flatten := h1
          clear h1
          subst hc'
          clear hc
          induction items with
          | nil => exact ⟨[], [], .nil, .nil, rfl⟩
          | cons x xs ihx =>
            obtain ⟨ls, vs, hc1, hc2, hc3⟩ := ihx (fun y hy => h2 y (by simp [hy])) (fun y hy => hlt y (by simp [hy]))
            obtain ⟨hb, hs⟩ := h2 x (by simp)
            obtain ⟨e1, e2, e3⟩ := (mergeStep_ok_iff h fuel x.1 x.2).mp hs
            simp only [List.map_cons, List.flatten_cons]
            rcases e3 with ⟨e3, e4⟩ | ⟨e3, e4, e5⟩
            · refine ⟨x.1.contents :: ls, x.2 :: vs, ?_, .cons e4 hc2, by rw [hc3]; rfl⟩
              exact Chunks.prim (v := x.1.tlv) hb e1 e3 e2 hc1
            · obtain ⟨ks, ws, k1, k2, k3⟩ := (ih _ _ (hlt x (by simp))).mp e5
              refine ⟨ks ++ ls, ws ++ vs, ?_, List.rel_append k2 hc2, by rw [hc3, k3, List.flatten_append]⟩
              exact Chunks.constructed (v := x.1.tlv) hb e1 e3 e2 e4 k1 hc1
        obtain ⟨ls, vs, k1, k2, k3⟩ := key
        refine ⟨ls, vs, k1, k2, ?_⟩
        rw [← k3]
        cases items with
        | nil =>
          simp only [if_true] at h3
          subst h3
          simp only [List.map_nil, List.flatten_nil] at h1
          subst h1
          simp only [Except.bind, hempty] at hm
          injection hm with hm
          rw [← hm]; rfl
        | cons x xs =>
          rw [if_neg (by simp)] at h3
          subst h3
          simp only [Except.bind, Option.getD_none, List.nil_append] at hm
          injection hm with hm
          exact hm.symm
    · rintro ⟨ls, vs, hch, hf, rfl⟩
      obtain ⟨items, rfl, rfl, hi⟩ := (chunks_iff tag c ls).mp hch
      have key : ∃ its : List (Info × List β), (its.map (fun x => x.1.tlv.bytes)).flatten = (items.map (fun x => x.1.bytes)).flatten ∧
          (∀ x ∈ its, Ber 11 x.1.tlv ∧ mergeStep asChunk p fuel x.1 = .ok x.2) ∧ (its.map Prod.snd).flatten = vs.flatten ∧
          (its = [] → items = []) := by
        have hlt : ∀ x ∈ items, x.1.contents.length < fuel := by
          intro x hx
          have hpos := Ber_bytes_pos (hi x hx).1
          have hsub : x.1.bytes.length ≤ ((items.map (fun x => x.1.bytes)).flatten).length :=
            List.Sublist.length_le (List.sublist_flatten_of_mem (List.mem_map.mpr ⟨x, hx, rfl⟩))
          omega
        clear hl hch hc
        induction items generalizing vs with
        | nil =>
          simp only [List.map_nil, List.flatten_nil] at hf
          cases hf
          exact ⟨[], rfl, by simp, rfl, fun _ => rfl⟩
        | cons x xs ihx =>
          simp only [List.map_cons, List.flatten_cons] at hf
          obtain ⟨ws, vs', h5, h6, rfl⟩ := forall2_append_left hf
          obtain ⟨its, a1, a2, a3, _⟩ := ihx vs' (fun y hy => hi y (by simp [hy])) h6 (fun y hy => hlt y (by simp [hy]))
          obtain ⟨b1, b2, b3, b4⟩ := hi x (by simp)
          refine ⟨(⟨x.1.cls, x.1.method, x.1.tag, x.1.header, x.1.contents, x.1.trailer⟩, ws.flatten) :: its, ?_, ?_, ?_, by simp⟩
          · simp only [List.map_cons, List.flatten_cons, a1]
            rfl
          · intro y hy
            rcases List.mem_cons.mp hy with rfl | hy
            · refine ⟨b1, (mergeStep_ok_iff h fuel _ _).mpr ⟨b2, b3, ?_⟩⟩
              rcases b4 with ⟨b4, b5⟩ | ⟨b4, b5, b6⟩
              · left
                rw [b5] at h5
                cases h5 with
                | cons hv hn =>
                  cases hn
                  exact ⟨b4, by simpa using hv⟩
              · right
                exact ⟨b4, b5, (ih _ _ (hlt x (by simp))).mpr ⟨x.2, ws, b6, h5, rfl⟩⟩
            · exact a2 y hy
          · simp only [List.map_cons, List.flatten_cons, a3, List.flatten_append]
      obtain ⟨its, a1, a2, a3, a4⟩ := key
      rw [(hl _).mpr ⟨its, by rw [List.drop_zero, a1], a2, rfl⟩]
      cases its with
      | nil =>
        have := a4 rfl
        subst this
        simp only [if_true, Except.bind, List.map_nil, List.flatten_nil, hempty]
        rw [← a3]; rfl
      | cons x xs =>
        rw [if_neg (by simp)]
        simp only [Except.bind, Option.getD_none, List.nil_append]
        rw [a3]

/-- Merging can only fail with `ValueError` or with an error of a leaf; in particular it terminates. -/
theorem mergeChunks_error {asChunk : Bool → Bytes → Py (List β)} {p : Obj ν} {tag : Nat} (h : Plain p tag) :
    ∀ (fuel : Nat) (c : Bytes) (e : PyErr), c.length < fuel → mergeChunks asChunk p fuel true c = .error e →
      e = .valueError ∨ ∃ b l, asChunk b l = .error e := by
  intro fuel
  induction fuel with
  | zero => intro c e hc; omega
  | succ fuel ih =>
    intro c e hc hm
    rw [mergeChunks_true] at hm
    cases hcl : chunkLoop (mergeStep asChunk p fuel) c (c.length + 1) 0 none with
    | error e' =>
      rw [hcl] at hm
      simp only [Except.bind] at hm
      injection hm with hm
      subst hm
      refine chunkLoop_error _ c (fun e => e = .valueError ∨ ∃ b l, asChunk b l = .error e) (Or.inl rfl) ?_ _ _ _ _
        (Nat.zero_le _) (by omega) hcl
      intro i e hi hs
      unfold mergeStep at hs
      cases hb : buildObj true [] p i with
      | error e' =>
        rw [hb] at hs
        injection hs with hs
        left
        unfold buildObj at hb
        rw [h.explicit] at hb
        rw [← hs]
        exact buildBase_error hb
      | ok o =>
        rw [hb] at hs
        simp only [bind, Except.bind] at hs
        obtain ⟨_, _, ⟨_, rfl⟩ | ⟨_, _, _, rfl⟩⟩ := (h.build i o).mp hb
        · simp only [h.indef] at hs
          right
          refine ⟨false, i.contents, ?_⟩
          cases fuel <;> exact hs
        · exact ih _ _ (by omega) hs
    | ok res =>
      rw [hcl] at hm
      cases res with
      | none => exact Or.inr ⟨true, c, hm⟩
      | some v => cases hm

theorem mergeObj_ok_iff {asChunk : Bool → Bytes → Py (List β)} {p : Obj ν} {tag : Nat} (h : Plain p tag)
    (hempty : asChunk true [] = .ok []) (c : Bytes) (out : List β) :
    mergeObj asChunk p true c = .ok out ↔
      ∃ ls vs, Chunks tag c ls ∧ List.Forall₂ (fun l v => asChunk false l = .ok v) ls vs ∧ out = vs.flatten :=
  mergeChunks_ok_iff h hempty _ c out (by omega)

theorem mergeObj_false (asChunk : Bool → Bytes → Py (List β)) (p : Obj ν) (c : Bytes) :
    mergeObj asChunk p false c = asChunk false c := rfl

theorem mergeObj_octets {p : Obj ν} {tag : Nat} (h : Plain p tag) (c out : Bytes) :
    mergeObj OctetString.asChunk p true c = .ok out ↔ ∃ ls, Chunks tag c ls ∧ out = ls.flatten := by
  rw [mergeObj_ok_iff h rfl]
  have : ∀ ls vs, List.Forall₂ (fun l v => OctetString.asChunk false l = .ok v) ls vs ↔ vs = ls := by
    intro ls vs
    constructor
    · intro hf
      induction hf with
      | nil => rfl
      | cons h1 _ ih => injection h1 with h1; rw [h1, ih]
    · rintro rfl
      induction vs with
      | nil => exact .nil
      | cons v vs ih => exact .cons rfl ih
  constructor
  · rintro ⟨ls, vs, h1, h2, rfl⟩
    rw [(this ls vs).mp h2]
    exact ⟨ls, h1, rfl⟩
  · rintro ⟨ls, h1, rfl⟩
    exact ⟨ls, ls, h1, (this ls ls).mpr rfl, rfl⟩

end Asn1
