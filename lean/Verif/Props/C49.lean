import Verif.Spec.EcKey
import Verif.Props.C14

/-! # C49 — EC private keys are written in the width of their curve

`w` stands for `math.ceil(math.log(n, 2.0) / 8.0)`, which only matters for explicitly specified curves. -/

namespace Asn1.Props
open Asn1 Spec EcKey

variable {w : Nat → Nat}

theorem widen_spec {o : IntOctObj} {n s : Nat} (ho : IsNumber o n) (he : (widen o s).2 = none) :
    IsNumber (widen o s).1 n ∧ ∃ c, (widen o s).1.contents = some c ∧ c.length = s := by
  obtain ⟨hi, ⟨c, hc, hv⟩, hn⟩ := ho
  have hnat : ∃ o3, IntegerOctetString.native { o with width := some s } = .ok (some n, o3) ∧ o3.width = some s ∧
      o3.indefinite = false := by
    unfold IntegerOctetString.native
    simp only [hc]
    rcases hn with hn | hn
    · simp only [hn, hi, mergeObj_false, OctetString.asChunk, bind, Except.bind, pure, Except.pure, intFromBytes_unsigned,
        Int.toNat_natCast, hv]
      exact ⟨_, rfl, rfl, rfl⟩
    · simp only [hn]
      exact ⟨_, rfl, rfl, hi⟩
  obtain ⟨o3, hnat, hw3, hi3⟩ := hnat
  by_cases hl : c.length = s
  · have : IntegerOctetString.setEncodedWidth o s = .ok { o with width := some s } := by
      unfold IntegerOctetString.setEncodedWidth
      simp only [hc]
      rw [if_neg (by simpa using hl)]
    unfold widen
    rw [this]
    exact ⟨⟨hi, ⟨c, hc, hv⟩, hn⟩, c, hc, hl⟩
  · have hse : IntegerOctetString.setEncodedWidth o s = IntegerOctetString.set o3 n := by
      unfold IntegerOctetString.setEncodedWidth
      simp only [hc]
      rw [if_pos hl, hnat]
      rfl
    unfold widen at he ⊢
    rw [hse] at he ⊢
    by_cases hf : n < 256 ^ s
    · obtain ⟨c', h1, h2, h3⟩ := intOct_set_spec o3 n (by
        intro w' h'; rw [hw3] at h'; injection h' with h'; rw [← h']; exact hf)
      rw [h1]
      refine ⟨⟨?_, ⟨c', rfl, h2⟩, .inr rfl⟩, c', rfl, h3 s hw3⟩
      simp [strPut]
    · exfalso
      have : IntegerOctetString.set o3 n = .error .overflowError := by
        unfold IntegerOctetString.set
        rw [if_neg (by omega), hw3, C06_width_overflow n s false]
        · rfl
        · intro bs hbs
          have := valU_lt bs
          rw [hbs] at this
          simp only [Bool.false_eq_true, if_false]
          omega
      rw [this] at he
      cases he


/-- What holds of the key after every operation: the asked width is stored, the child writes the number assigned last, in the
stored width if there is one, and the octets of the last dump are those of the child unless the key is marked as changed. -/
structure KeyInv (k : Key) (a v : Option Nat) (fresh : Bool) : Prop where
  asked : ∀ s, a = some s → k.keySize = some s
  empty : v = none → k.priv = none
  number : ∀ n, v = some n → ∃ o, k.priv = some o ∧ IsNumber o n ∧
    ∀ s, k.keySize = some s → ∃ c, o.contents = some c ∧ c.length = s
  octets : fresh = true → k.mutated = false → ∀ c, k.octets = some c → ∃ o, k.priv = some o ∧ o.contents = some c

theorem updateKeySize_inv {k : Key} {a v : Option Nat} {f : Bool} {s : Nat} (hk : k.keySize = some s)
    (ha : ∀ s', a = some s' → s' = s) (hn : v = none → k.priv = none)
    (hs : ∀ n, v = some n → ∃ o, k.priv = some o ∧ IsNumber o n) (hm : f = true → k.mutated = true)
    (he : (updateKeySize k).2 = none) : KeyInv (updateKeySize k).1 a v f := by
  unfold updateKeySize at he ⊢
  simp only [hk] at he ⊢
  cases hv : v with
  | none =>
    have hp := hn hv
    simp only [hp]
    exact ⟨fun s' h => by rw [hk, ha s' h], fun _ => hp, fun n h => (by cases h), fun hf hmf => by rw [hm hf] at hmf; cases hmf⟩
  | some n =>
    obtain ⟨o, hp, ho⟩ := hs n hv
    simp only [hp] at he ⊢
    obtain ⟨h1, h2⟩ := widen_spec ho he
    refine ⟨fun s' h => by rw [ha s' h, ← hk], fun h => (by cases h), fun m hm' => ?_, ?_⟩
    rotate_left
    · intro hf hmf
      rw [show k.mutated = true from hm hf] at hmf
      cases hmf
    injection hm' with hm'
    subst hm'
    refine ⟨_, rfl, h1, fun s' h => ?_⟩
    injection h with h
    subst h
    exact h2

theorem makeValue_number {x : Value} {o : IntOctObj} {n : Nat} (hx : ValueIs x n) (h : makeValue x = .ok o) : IsNumber o n := by
  cases x with
  | int m =>
    have hm : m = (n : Int) := hx
    subst hm
    obtain ⟨c, h1, h2, _⟩ := intOct_set_spec IntegerOctetString.new n (by simp [IntegerOctetString.new])
    rw [show makeValue (.int n) = _ from h1] at h
    injection h with h
    subst h
    exact ⟨rfl, ⟨c, rfl, h2⟩, .inr rfl⟩
  | obj p =>
    have hp : IsNumber p n := hx
    obtain ⟨c, hc, _⟩ := hp.2.1
    simp only [makeValue, hc] at h
    injection h with h
    exact h ▸ hp

theorem assignPriv_inv {k : Key} {a v : Option Nat} {f : Bool} {x : Value} {n : Nat} (hk : KeyInv k a v f) (hx : ValueIs x n)
    (he : (assignPriv k true x).2 = none) : KeyInv (assignPriv k true x).1 a (some n) f := by
  unfold assignPriv at he ⊢
  cases hm : makeValue x with
  | error e => rw [hm] at he; cases he
  | ok o =>
    rw [hm] at he
    have ho := makeValue_number hx hm
    obtain ⟨c, hc, _⟩ := ho.2.1
    have hnum : ∀ m, some n = some m → ∃ o', some o = some o' ∧ IsNumber o' m := by
      intro m h; injection h with h; subst h; exact ⟨o, rfl, ho⟩
    simp only [if_true, hc] at he ⊢
    cases hks : k.keySize with
    | none =>
      simp only [hks] at he ⊢
      by_cases hl : c.length > 1
      · rw [if_pos hl] at he ⊢
        exact updateKeySize_inv (s := c.length) rfl (fun s' h => by rw [hk.asked s' h] at hks; cases hks)
          (fun h => by cases h) hnum (fun _ => rfl) he
      · rw [if_neg hl]
        refine ⟨fun s h => (by rw [hk.asked s h] at hks; cases hks), fun h => (by cases h), fun m h => ?_, fun _ h => by cases h⟩
        injection h with h
        subst h
        exact ⟨o, rfl, ho, fun s h => by cases h⟩
    | some s =>
      simp only [hks] at he ⊢
      exact updateKeySize_inv (s := s) rfl (fun s' h => by
        have := hk.asked s' h; rw [hks] at this; injection this with this; exact this.symm)
        (fun h => by cases h) hnum (fun _ => rfl) he

theorem setKeySize_inv {k : Key} {a v : Option Nat} {f g : Bool} (s : Nat) (hk : KeyInv k a v f) (hm : g = true → k.mutated = true)
    (he : (setKeySize k s).2 = none) : KeyInv (setKeySize k s).1 (some s) v g :=
  updateKeySize_inv (s := s) rfl (fun s' h => by injection h with h; exact h.symm) hk.empty
    (fun n h => by obtain ⟨o, h1, h2, _⟩ := hk.number n h; exact ⟨o, h1, h2⟩) hm he

theorem touch_inv {k : Key} {a v : Option Nat} {f : Bool} (p : Option Params) (hk : KeyInv k a v f) :
    KeyInv { k with params := p, mutated := true } a v f :=
  ⟨hk.asked, hk.empty, hk.number, fun _ h => by cases h⟩

theorem assignParams_inv {k : Key} {a v : Option Nat} {f : Bool} {t : Sizes} {p : Option Params} (hk : KeyInv k a v f)
    (he : (assignParams w t k true p).2 = none) :
    KeyInv (assignParams w t k true p).1 (match p with
      | none => a
      | some q => match q.keySize w t with
        | .ok n => some n
        | .error _ => a) v f := by
  unfold assignParams at he ⊢
  simp only [if_true] at he ⊢
  cases p with
  | none => exact touch_inv none hk
  | some q =>
    cases q with
    | implicitCa => exact touch_inv _ hk
    | specified o =>
      simp only at he ⊢
      cases hq : Params.keySize w t (.specified o) with
      | error e => rw [hq] at he; cases he
      | ok n =>
        simp only [hq] at he ⊢
        exact setKeySize_inv n (touch_inv _ hk) (fun _ => rfl) he
    | named o =>
      simp only at he ⊢
      cases hq : Params.keySize w t (.named o) with
      | error e => rw [hq] at he; cases he
      | ok n =>
        simp only [hq] at he ⊢
        exact setKeySize_inv n (touch_inv _ hk) (fun _ => rfl) he

theorem dump_inv {k : Key} {a v : Option Nat} {f : Bool} (hk : KeyInv k a v f) (he : (EcKey.dump k).2 = none) :
    KeyInv (EcKey.dump k).1 a v f := by
  unfold EcKey.dump at he ⊢
  split at he
  · rename_i hc
    rw [if_pos hc]
    cases hp : k.priv with
    | none => rw [hp] at he; cases he
    | some o =>
      refine ⟨hk.asked, fun h => ?_, fun n h => ?_, fun _ _ c h => ⟨o, rfl, h⟩⟩
      · rw [hk.empty h] at hp; cases hp
      · obtain ⟨o', h1, h2⟩ := hk.number n h
        rw [hp] at h1
        injection h1 with h1
        subst h1
        exact ⟨o, rfl, h2⟩
  · rename_i hc
    rw [if_neg hc]
    exact hk

theorem run_inv : ∀ (ops : List Op) {s s' : World} {a v v' : Option Nat} {f : Bool}, KeyInv s.key a v f →
    (∀ op ∈ ops, ByName op) → (f = true → ∀ op ∈ ops, ∀ n, op ≠ .setKeySize n) → LastNumber v ops v' → run w s ops = some s' →
    KeyInv s'.key (askedWidth w s.sizes a ops) v' f
  | [], s, s', a, v, v', f, hk, _, _, hn, hr => by
    cases hn
    injection hr with hr
    exact hr ▸ hk
  | op :: ops, s, s', a, v, v', f, hk, hb, hf, hn, hr => by
    have hb' := fun o ho => hb o (List.mem_cons_of_mem _ ho)
    have hf' := fun h o ho => hf h o (List.mem_cons_of_mem _ ho)
    unfold run at hr
    cases hst : step w s op with
    | mk s1 e =>
      rw [hst] at hr
      cases e with
      | some e => cases hr
      | none =>
        simp only at hr
        cases op with
        | priv b x =>
          have hbt : b = true := hb _ (List.mem_cons_self ..)
          subst hbt
          cases hn with
          | other h _ => exact absurd rfl (h true x)
          | priv hx hn =>
            injection hst with h1 h2
            subst h1
            have := run_inv (s := { s with key := (assignPriv s.key true x).1 }) ops (assignPriv_inv hk hx h2) hb' hf' hn hr
            exact this
        | params b p =>
          have hbt : b = true := hb _ (List.mem_cons_self ..)
          subst hbt
          cases hn with
          | other _ hn =>
            injection hst with h1 h2
            subst h1
            have := run_inv (s := { s with key := (assignParams w s.sizes s.key true p).1 }) ops (assignParams_inv (w := w) hk h2) hb' hf' hn hr
            cases p <;> exact this
        | delParams =>
          cases hn with
          | other _ hn =>
            injection hst with h1 h2
            subst h1
            have := run_inv (s := { s with key := { s.key with params := none, mutated := true } }) ops (touch_inv none hk) hb' hf' hn hr
            exact this
        | setKeySize n =>
          cases hn with
          | other _ hn =>
            injection hst with h1 h2
            subst h1
            have := run_inv (s := { s with key := (setKeySize s.key n).1 }) ops
              (setKeySize_inv n hk (fun h => absurd rfl (hf h _ (List.mem_cons_self ..) n)) h2) hb' hf' hn hr
            exact this
        | register oid n =>
          cases hn with
          | other _ hn =>
            injection hst with h1 h2
            subst h1
            exact run_inv ops (s := { s with sizes := s.sizes.register oid n }) hk hb' hf' hn hr
        | dump =>
          cases hn with
          | other _ hn =>
            injection hst with h1 h2
            subst h1
            have := run_inv (s := { s with key := (EcKey.dump s.key).1 }) ops (dump_inv hk h2) hb' hf' hn hr
            exact this

/-- A key just made, or just loaded with its private key in primitive form. `v` is the number it holds. -/
inductive Start : Key → Option Nat → Prop
  | fresh : Start {} none
  | loaded : IsNumber o n → Start (EcKey.loaded o p) (some n)

theorem start_inv {k : Key} {v : Option Nat} (h : Start k v) (f : Bool) : KeyInv k none v f := by
  cases h with
  | fresh => exact ⟨fun _ h => (by cases h), fun _ => rfl, fun _ h => (by cases h), fun _ _ _ h => by cases h⟩
  | loaded ho =>
    refine ⟨fun _ h => (by cases h), fun h => (by cases h), fun m h => ?_, fun _ _ c h => ⟨_, rfl, h⟩⟩
    injection h with h
    subst h
    exact ⟨_, rfl, ho, fun _ h => by cases h⟩

/-- However the fields of a new or loaded key were assigned, by name and in any order, and whatever curves were registered in
between: once a width was asked for, by curve parameters or by `set_key_size`, the private key is written in exactly that many
octets, and it is the number assigned last. -/
theorem C49_width {t : Sizes} {k : Key} {v : Option Nat} (hk : Start k v) {ops : List Op} {s : World} {n width : Nat}
    (hname : ∀ op ∈ ops, ByName op) (hrun : run w { sizes := t, key := k } ops = some s)
    (hn : LastNumber v ops (some n)) (hw : askedWidth w t none ops = some width) :
    ∃ o c, s.key.priv = some o ∧ o.contents = some c ∧ c.length = width ∧ valU c = n := by
  have hi := run_inv (f := false) ops (start_inv hk false) hname (fun h => by cases h) hn hrun
  obtain ⟨o, ho, hnum, hlen⟩ := hi.number n rfl
  obtain ⟨c, hc, hl⟩ := hlen width (hi.asked width hw)
  obtain ⟨_, ⟨c', hc', hv⟩, _⟩ := hnum
  rw [hc] at hc'
  injection hc' with hc'
  exact ⟨o, c, ho, hc, hl, hc' ▸ hv⟩

theorem run_append : ∀ (ops more : List Op) (s : World), run w s (ops ++ more) = (run w s ops).bind fun s' => run w s' more
  | [], _, _ => rfl
  | op :: ops, more, s => by
    rw [List.cons_append, run, run]
    cases h : step w s op with
    | mk s1 e =>
      cases e with
      | some e => rfl
      | none => exact run_append ops more s1

theorem dump_clean {k : Key} (he : (EcKey.dump k).2 = none) : (EcKey.dump k).1.mutated = false ∧
    ((EcKey.dump k).1.octets = none → ∃ o, (EcKey.dump k).1.priv = some o ∧ o.contents = none) := by
  unfold EcKey.dump at he ⊢
  by_cases hc : (k.mutated || k.octets.isNone) = true
  · rw [if_pos hc] at he ⊢
    cases hp : k.priv with
    | none => rw [hp] at he; cases he
    | some o => exact ⟨rfl, fun h => ⟨o, rfl, h⟩⟩
  · rw [if_neg hc]
    simp only [Bool.or_eq_true, not_or, Bool.not_eq_true] at hc
    refine ⟨hc.1, fun h => ?_⟩
    rw [show k.octets = none from h] at hc
    cases hc.2

/-- `dump()` then writes the private key in the width of its curve, when only items were assigned (no call of
`set_key_size`; `C49_set_key_size_stale` is why). -/
theorem C49_dump_partial {t : Sizes} {k : Key} {v : Option Nat} (hk : Start k v) {ops : List Op} {s : World} {n width : Nat}
    (hname : ∀ op ∈ ops, ByName op) (hitems : ∀ op ∈ ops, ∀ n, op ≠ .setKeySize n)
    (hrun : run w { sizes := t, key := k } (ops ++ [.dump]) = some s)
    (hn : LastNumber v ops (some n)) (hw : askedWidth w t none ops = some width) :
    ∃ c, s.key.octets = some c ∧ c.length = width ∧ valU c = n := by
  rw [run_append] at hrun
  cases h1 : run w { sizes := t, key := k } ops with
  | none => rw [h1] at hrun; cases hrun
  | some s1 =>
    rw [h1] at hrun
    have hrun : run w s1 [.dump] = some s := hrun
    have hi := run_inv (f := true) ops (start_inv hk true) hname (fun _ => hitems) hn h1
    unfold run at hrun
    cases hst : step w s1 .dump with
    | mk s2 e =>
      rw [hst] at hrun
      cases e with
      | some e => cases hrun
      | none =>
        injection hrun with hrun
        subst hrun
        injection hst with h3 h2
        subst h3
        have hd := dump_inv hi h2
        obtain ⟨hm, hno⟩ := dump_clean h2
        obtain ⟨o, ho, hnum, hlen⟩ := hd.number n rfl
        obtain ⟨c, hc, hl⟩ := hlen width (hd.asked width hw)
        obtain ⟨_, ⟨c', hc', hv⟩, _⟩ := hnum
        rw [hc] at hc'
        injection hc' with hc'
        subst hc'
        cases hoct : (EcKey.dump s1.key).1.octets with
        | none =>
          obtain ⟨o', h4, h5⟩ := hno hoct
          rw [ho] at h4
          injection h4 with h4
          rw [← h4, hc] at h5
          cases h5
        | some d =>
          obtain ⟨o', h4, h5⟩ := hd.octets rfl hm d hoct
          rw [ho] at h4
          injection h4 with h4
          rw [← h4, hc] at h5
          injection h5 with h5
          exact ⟨d, rfl, h5 ▸ hl, h5 ▸ hv⟩

/-- While a width is set, a number is accepted exactly when it fits; otherwise `OverflowError` is raised. -/
theorem C49_assign (k : Key) (s n : Nat) (hk : k.keySize = some s) :
    ((assignPriv k true (.int n)).2 = none ↔ n < 256 ^ s) ∧
      (¬ n < 256 ^ s → (assignPriv k true (.int n)).2 = some .overflowError) := by
  obtain ⟨c, h1, h2, _⟩ := intOct_set_spec IntegerOctetString.new n (by simp [IntegerOctetString.new])
  have h1 : makeValue (.int n) = _ := h1
  have hres : ∀ e, (widen { IntegerOctetString.new with toObj := strPut IntegerOctetString.new.toObj n c } s).2 = e →
      (assignPriv k true (.int n)).2 = e := by
    rintro _ rfl
    unfold assignPriv
    rw [h1]
    simp only [if_true, hk, updateKeySize]
  have hcons : ∀ c', (strPut IntegerOctetString.new.toObj n c).contents = some c' → valU c' = n := by
    intro c' h; injection h with h; exact h ▸ h2
  have ho : (¬ n < 256 ^ s → (assignPriv k true (.int n)).2 = some .overflowError) := by
    intro hf
    refine hres _ ?_
    unfold widen
    rw [C14_width_overflow _ _ n s hcons (by simp [strPut]) rfl rfl (by omega)]
  refine ⟨⟨fun h => ?_, fun hf => ?_⟩, ho⟩
  · by_contra hf
    rw [ho hf] at h
    cases h
  · refine hres _ ?_
    unfold widen
    obtain ⟨o2, _, _, h5, _⟩ := C14_width_fits { IntegerOctetString.new with toObj := strPut IntegerOctetString.new.toObj n c } _
      n s rfl hcons (by simp [strPut]) rfl hf
    rw [h5]

/-- Every curve the library names has a width. -/
theorem C49_curves : ∀ e ∈ curveNames, ∃ n, Sizes.get curveSizes e.1 = some n ∧ 0 < n := by
  have : ∀ e ∈ curveNames, (match Sizes.get curveSizes e.1 with
    | some n => decide (0 < n)
    | none => false) = true := by decide +kernel
  intro e he
  have := this e he
  cases h : Sizes.get curveSizes e.1 with
  | none => rw [h] at this; cases this
  | some n => rw [h] at this; exact ⟨n, rfl, by simpa using this⟩

/-- Registering a curve makes its width known at once, whatever was known of it before. -/
theorem C49_register (t : Sizes) (oid : String) (n : Nat) : Params.keySize w (t.register oid n) (.named oid) = .ok n := by
  simp [Params.keySize, Sizes.register, Sizes.get]

/-- Curve parameters without a known width, or with an order that is not positive, are stored, but the assignment raises `ValueError`;
`implicit_ca` asks for nothing. -/
theorem C49_no_width (t : Sizes) (k : Key) (oid : String) (h : t.get oid = none) (order : Int) (ho : order < 1) :
    assignParams w t k true (some (.named oid)) = ({ k with params := some (.named oid), mutated := true }, some .valueError) ∧
      assignParams w t k true (some (.specified order)) = ({ k with params := some (.specified order), mutated := true }, some .valueError) ∧
      assignParams w t k true (some .implicitCa) = ({ k with params := some .implicitCa, mutated := true }, none) := by
  refine ⟨?_, ?_, rfl⟩
  · simp [assignParams, Params.keySize, h]
  · simp [assignParams, Params.keySize, show order ≤ 0 by omega]

/-- A width function for the examples, the number of octets of `n`. -/
def octetLength (n : Nat) : Nat := (bitLength n + 7) / 8

/-- secp256r1 -/
def p256 : Op := .params true (some (.named "1.2.840.10045.3.1.7"))

-- a new key: number first, then the curve, then another number
example : (run octetLength {} [.priv true (.int 300), p256, .dump, .priv true (.int 5), .dump]).map (fun s => s.key.octets) =
    some (some (List.replicate 31 0 ++ [5])) := by decide +kernel

example : askedWidth octetLength curveSizes none [.priv true (.int 300), p256, .dump, .priv true (.int 5)] = some 32 := by decide +kernel

example : LastNumber none [.priv true (.int 300), p256, .dump, .priv true (.int 5)] (some 5) :=
  .priv (m := 300) rfl (.other (fun _ _ h => by cases h) (.other (fun _ _ h => by cases h) (.priv rfl .done)))

-- a curve registered on the way
example : (run octetLength {} [.register "1.2.3" 4, .params true (some (.named "1.2.3")), .priv true (.int 5), .dump]).map
    (fun s => s.key.octets) = some (some [0, 0, 0, 5]) := by decide +kernel

example (k : Key) (hk : k.keySize = some 2) : (assignPriv k true (.int 65535)).2 = none :=
  ((C49_assign k 2 65535 hk).1).mpr (by decide)

/-! ## Where the code does otherwise -/

/-- A loaded `IntegerOctetString` with the octets `c` -/
def loadedOctets (c : Bytes) : IntOctObj := { IntegerOctetString.new with contents := some c, header := some [(4 : UInt8), UInt8.ofNat c.length] }

/-- A loaded key on secp256r1 -/
def loadedP256 : Key := EcKey.loaded (loadedOctets (List.replicate 32 1)) (some (.named "1.2.840.10045.3.1.7"))

/-- On a loaded key the curve parameters that are already there are not looked at: a new private key is written in the shortest
form, although the key names secp256r1. -/
theorem C49_loaded_ignored : ∃ s, run octetLength { key := loadedP256 } [.priv true (.int 5), .dump] = some s ∧
    s.key.params = some (.named "1.2.840.10045.3.1.7") ∧ s.key.octets = some [5] := by
  refine ⟨_, rfl, rfl, ?_⟩
  decide +kernel

/-- Assigning by index instead of by name bypasses the width. -/
theorem C49_index_bypasses : (run octetLength {} [p256, .priv false (.int 5), .dump]).map (fun s => s.key.octets) = some (some [5]) := by
  decide +kernel

/-- `set_key_size` on a key that was already dumped (or loaded) changes the child but not what `dump()` writes. -/
theorem C49_set_key_size_stale : (run octetLength {} [.priv true (.int 5), .dump, .setKeySize 32, .dump]).map
    (fun s => (s.key.octets, s.key.priv.bind (fun o => o.contents))) = some (some [5], some (List.replicate 31 0 ++ [5])) := by
  decide +kernel

/-- Without a curve, the first private key of at least two octets fixes the width: a longer one is then refused. -/
theorem C49_first_fixes : ∃ s, run octetLength {} [.priv true (.int 300)] = some s ∧
    (step octetLength s (.priv true (.int 70000))).2 = some .overflowError := by
  refine ⟨_, rfl, ?_⟩
  decide +kernel

/-- A refused private key stays in the structure if the exception is caught, and is dumped in the wrong width. -/
theorem C49_refused_stays : (runCaught octetLength {} [.register "1.2.3" 1, .params true (some (.named "1.2.3")), .priv true (.int 300),
    .dump]).key.octets = some [1, 44] := by decide +kernel

end Asn1.Props
