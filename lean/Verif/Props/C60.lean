import Verif.Lemmas.CertState
import Verif.Lemmas.KernelRfl
import Verif.Lemmas.PyStr
import Verif.Model.Issuer
import Verif.Props.C55

/-!
# C60: certificates are identified by the hash of the issuer and the serial number

The object is new, then any properties of it are read, in any order, and `issuer_serial` or `authority_issuer_serial` is read at last.
-/

namespace Asn1.Cert
open Asn1 Spec
variable {V : Type}

/-- A read of a property of a certificate. -/
inductive SerialOp where
  | cert (o : CertOp)
  | own
  | authority

/-- The state after a read, whether it raises or not. -/
def SerialOp.run (H : Bytes → Bytes) (R : Reads V) (A : AuthorityReads V) (c : Source V) (i : Identity) (st : State V × SerialState) :
    SerialOp → State V × SerialState
  | .cert o => (o.run R c st.1, st.2)
  | .own => (st.1, (issuerSerial H i st.2).2)
  | .authority => (authorityIssuerSerial H A c st).2

/-- The object after the reads. -/
def afterReads (H : Bytes → Bytes) (R : Reads V) (A : AuthorityReads V) (c : Source V) (i : Identity) (ops : List SerialOp) : State V × SerialState :=
  ops.foldl (SerialOp.run H R A c i) (State.new, {})

/-- The identifier of the authority, read from the extensions. -/
def authorityOfCert (H : Bytes → Bytes) (A : AuthorityReads V) (c : Source V) : Py (Option Bytes) := do
  match lastValue "authority_key_identifier".toList (← readAll certificateAttrs c.exts) with
  | none => .ok none
  | some v => authorityOf H A v

/-- The identifier of the certificate. -/
def ownOf (H : Bytes → Bytes) (i : Identity) : Py Bytes := do
  let d ← i.issuer
  let n ← i.serial
  .ok (identifier H d (some n))

theorem issuerSerial_sound {H : Bytes → Bytes} {i : Identity} {st : SerialState} (h : ∀ b, st.own = some b → ownOf H i = .ok b) :
    (issuerSerial H i st).1 = ownOf H i ∧ (∀ b, (issuerSerial H i st).2.own = some b → ownOf H i = .ok b) ∧
      (issuerSerial H i st).2.authority = st.authority := by
  unfold issuerSerial
  cases ho : st.own with
  | some b => exact ⟨(h b ho).symm, h, rfl⟩
  | none =>
    unfold ownOf at h ⊢
    cases hi : i.issuer with
    | error x => simp_all [bind, Except.bind]
    | ok d =>
      cases hn : i.serial with
      | error x => simp_all [bind, Except.bind]
      | ok n => simp_all [bind, Except.bind]

theorem authority_sound {H : Bytes → Bytes} {R : Reads V} {A : AuthorityReads V} {c : Source V} {st : State V × SerialState} (hc : CertCore R c st.1)
    (h : ∀ r, st.2.authority = some r → authorityOfCert H A c = .ok r) :
    (authorityIssuerSerial H A c st).1 = authorityOfCert H A c ∧ (∀ r, (authorityIssuerSerial H A c st).2.2.authority = some r → authorityOfCert H A c = .ok r) ∧
      (authorityIssuerSerial H A c st).2.2.own = st.2.own ∧
      ((authorityIssuerSerial H A c st).2.1 = st.1 ∨ (authorityIssuerSerial H A c st).2.1 = (value c "authority_key_identifier" st.1).2) := by
  unfold authorityIssuerSerial
  cases ho : st.2.authority with
  | some r => exact ⟨(h r ho).symm, h, rfl, .inl rfl⟩
  | none =>
    have h1 := (value_sound hc "authority_key_identifier").1 (by decide +kernel)
    unfold authorityOfCert at h ⊢
    cases hr : readAll certificateAttrs c.exts with
    | error x =>
      rw [hr] at h1
      cases hv : value c "authority_key_identifier" st.1 with
      | mk r s =>
        rw [hv] at h1
        simp only [Except.map] at h1
        subst h1
        simp_all [bind, Except.bind]
    | ok l =>
      rw [hr] at h1
      cases hv : value c "authority_key_identifier" st.1 with
      | mk r s =>
        rw [hv] at h1
        simp only [Except.map] at h1
        subst h1
        cases hl : lastValue "authority_key_identifier".toList l with
        | none => simp_all [bind, Except.bind]
        | some v =>
          cases ha : authorityOf H A v with
          | error x => simp_all [bind, Except.bind]
          | ok q => simp_all [bind, Except.bind]

theorem reads_sound (H : Bytes → Bytes) (R : Reads V) (A : AuthorityReads V) (c : Source V) (i : Identity) (ops : List SerialOp) :
    (∃ os : List CertOp, (afterReads H R A c i ops).1 = os.foldl (CertOp.run R c) State.new) ∧
      (∀ b, (afterReads H R A c i ops).2.own = some b → ownOf H i = .ok b) ∧
      (∀ r, (afterReads H R A c i ops).2.authority = some r → authorityOfCert H A c = .ok r) := by
  induction ops using List.reverseRecOn with
  | nil => exact ⟨⟨[], rfl⟩, fun b h => (by cases h), fun r h => (by cases h)⟩
  | append_singleton ops o ih =>
    unfold afterReads at ih ⊢
    rw [List.foldl_append]
    generalize ops.foldl (SerialOp.run H R A c i) (State.new, {}) = st at ih ⊢
    obtain ⟨⟨os, h1⟩, h2, h3⟩ := ih
    simp only [List.foldl_cons, List.foldl_nil]
    cases o with
    | cert o => exact ⟨⟨os ++ [o], by simp [SerialOp.run, h1]⟩, h2, h3⟩
    | own =>
      have := issuerSerial_sound h2
      exact ⟨⟨os, h1⟩, this.2.1, by simp only [SerialOp.run, this.2.2]; exact h3⟩
    | authority =>
      have hc : CertCore R c st.1 := by rw [h1]; exact (certOps_sound R c os).1
      have := authority_sound (H := H) (A := A) hc h3
      refine ⟨?_, by simp only [SerialOp.run, this.2.2.1]; exact h2, this.2.1⟩
      rcases this.2.2.2 with h | h
      · exact ⟨os, by simp only [SerialOp.run, h, h1]⟩
      · exact ⟨os ++ [.value "authority_key_identifier"], by simp [SerialOp.run, h, h1, CertOp.run]⟩

theorem own_reads (H : Bytes → Bytes) (R : Reads V) (A : AuthorityReads V) (c : Source V) (i : Identity) (ops : List SerialOp) :
    (issuerSerial H i (afterReads H R A c i ops).2).1 = ownOf H i := (issuerSerial_sound (reads_sound H R A c i ops).2.1).1

theorem authority_reads (H : Bytes → Bytes) (R : Reads V) (A : AuthorityReads V) (c : Source V) (i : Identity) (ops : List SerialOp) :
    (authorityIssuerSerial H A c (afterReads H R A c i ops)).1 = authorityOfCert H A c := by
  obtain ⟨⟨os, h1⟩, h2, h3⟩ := reads_sound H R A c i ops
  exact (authority_sound (R := R) (by rw [h1]; exact (certOps_sound R c os).1) h3).1

/-! ### The form of the identifiers -/

/-- Whatever was read before, `issuer_serial` is the hash of the encoding of the issuer, a colon and the serial number in decimal. -/
theorem C60_own (H : Bytes → Bytes) (R : Reads V) (A : AuthorityReads V) (c : Source V) (i : Identity) (ops : List SerialOp) (issuer : Bytes) (n : Int)
    (hi : i.issuer = .ok issuer) (hn : i.serial = .ok n) :
    (issuerSerial H i (afterReads H R A c i ops).2).1 = .ok (H issuer ++ [58] ++ (pyStrInt n).map fun d => UInt8.ofNat d.toNat) := by
  rw [own_reads, ownOf, hi, hn]; rfl

/-- Whatever was read before, `authority_issuer_serial` is made in the same way of the issuer and serial number in the authority key identifier extension, if
the first name there is a directory name, and is `None` if there is no such extension or no name in it. -/
theorem C60_authority (H : Bytes → Bytes) (R : Reads V) (A : AuthorityReads V) (c : Source V) (i : Identity) (ops : List SerialOp)
    (l : List (Str × Option V × Bool)) (hl : readAll certificateAttrs c.exts = .ok l) :
    (lastValue "authority_key_identifier".toList l = none → (authorityIssuerSerial H A c (afterReads H R A c i ops)).1 = .ok none) ∧
    ∀ v, lastValue "authority_key_identifier".toList l = some v →
      (A.issuers v = .ok none ∨ A.issuers v = .ok (some []) → (authorityIssuerSerial H A c (afterReads H R A c i ops)).1 = .ok none) ∧
      ∀ g gs issuer n, A.issuers v = .ok (some (g :: gs)) → g = .ok (.directory (.ok issuer)) → A.serial v = .ok (some n) →
        (authorityIssuerSerial H A c (afterReads H R A c i ops)).1 = .ok (some (H issuer ++ [58] ++ (pyStrInt n).map fun d => UInt8.ofNat d.toNat)) := by
  rw [authority_reads, authorityOfCert, hl]
  refine ⟨fun h => by simp only [bind, Except.bind, h], fun v hv => ⟨fun h => ?_, fun g gs issuer n h1 h2 h3 => ?_⟩⟩
  · rcases h with h | h <;> simp only [bind, Except.bind, hv, authorityOf, h]
  · simp only [bind, Except.bind, hv, authorityOf, h1, h2, h3]; rfl

/-- What could not be read raises, and raises again, however often one reads. -/
theorem C60_again (H : Bytes → Bytes) (R : Reads V) (A : AuthorityReads V) (c : Source V) (i : Identity) (ops ops' : List SerialOp) :
    (issuerSerial H i (afterReads H R A c i ops).2).1 = (issuerSerial H i (afterReads H R A c i ops').2).1 ∧
    (authorityIssuerSerial H A c (afterReads H R A c i ops)).1 = (authorityIssuerSerial H A c (afterReads H R A c i ops')).1 := by
  rw [own_reads, own_reads, authority_reads, authority_reads]
  exact ⟨rfl, rfl⟩

/-! ### What the identifiers tell apart -/

theorem serialText_ascii (n : Int) : ∀ d ∈ pyStrInt n, d.toNat < 128 ∧ d ≠ ':' := by
  have key : ∀ m : Nat, ∀ d ∈ pyStrNat m, d.toNat < 128 ∧ d ≠ ':' := by
    intro m d hd
    obtain ⟨k, hk, rfl⟩ := mem_pyStrNat m d hd
    have : ∀ k < 10, (digitChar k).toNat < 128 ∧ digitChar k ≠ ':' := by decide
    exact this k hk
  intro d hd
  unfold pyStrInt at hd
  split at hd
  · rcases List.mem_cons.mp hd with rfl | hd
    · decide
    · exact key _ d hd
  · exact key _ d hd

theorem pyStrInt_inj {m n : Int} (h : pyStrInt m = pyStrInt n) : m = n := by
  have key : ∀ k : Nat, ∀ d ∈ pyStrNat k, d ≠ '-' := by
    intro k d hd
    obtain ⟨j, hj, rfl⟩ := mem_pyStrNat k d hd
    have : ∀ k < 10, digitChar k ≠ '-' := by decide
    exact this j hj
  unfold pyStrInt at h
  split at h <;> split at h
  · have := pyStrNat_inj (List.cons.inj h).2; omega
  · exact absurd rfl (key n.toNat '-' (h ▸ List.mem_cons_self ..))
  · exact absurd rfl (key m.toNat '-' (h ▸ List.mem_cons_self ..))
  · have := pyStrNat_inj h; omega

theorem asciiBytes_inj {s t : Str} (hs : ∀ d ∈ s, d.toNat < 128) (ht : ∀ d ∈ t, d.toNat < 128) (h : asciiBytes s = asciiBytes t) : s = t := by
  induction s generalizing t with
  | nil => cases t with
    | nil => rfl
    | cons y t => cases h
  | cons x s ih => cases t with
    | nil => cases h
    | cons y t =>
      obtain ⟨h1, h2⟩ := List.cons.inj h
      have hx := hs x (by simp)
      have hy := ht y (by simp)
      have : x.toNat = y.toNat := by
        have := congrArg UInt8.toNat h1
        simp only [UInt8.toNat_ofNat'] at this
        omega
      rw [Char.toNat_inj.mp this, ih (fun d hd => hs d (by simp [hd])) (fun d hd => ht d (by simp [hd])) h2]

theorem split_last {a a' b b' : Bytes} {x : UInt8} (hb : x ∉ b) (hb' : x ∉ b') (h : a ++ [x] ++ b = a' ++ [x] ++ b') : a = a' ∧ b = b' := by
  induction b using List.reverseRecOn generalizing b' with
  | nil =>
    cases b' using List.reverseRecOn with
    | nil => simpa using h
    | append_singleton b' y =>
      rw [List.append_nil, ← List.append_assoc] at h
      obtain ⟨-, h⟩ := List.append_inj' h rfl
      exact absurd (by simp_all) hb'
  | append_singleton b y ih =>
    cases b' using List.reverseRecOn with
    | nil =>
      rw [List.append_nil, ← List.append_assoc] at h
      obtain ⟨-, h⟩ := List.append_inj' h rfl
      exact absurd (by simp_all) hb
    | append_singleton b' z =>
      rw [← List.append_assoc, ← List.append_assoc] at h
      obtain ⟨h1, h2⟩ := List.append_inj' h rfl
      obtain ⟨h3, h4⟩ := ih (fun hm => hb (by simp [hm])) (b' := b') (fun hm => hb' (by simp [hm])) h1
      exact ⟨h3, by rw [h4, h2]⟩

theorem asciiBytes_colon {s : Str} (h : ∀ d ∈ s, d.toNat < 128 ∧ d ≠ ':') : (58 : UInt8) ∉ asciiBytes s := by
  intro hm
  obtain ⟨d, hd, he⟩ := List.mem_map.mp hm
  obtain ⟨h1, h2⟩ := h d hd
  have := congrArg UInt8.toNat he
  simp only [UInt8.toNat_ofNat'] at this
  refine h2 (Char.toNat_inj.mp ?_)
  have h58 : (58 : UInt8).toNat = 58 := rfl
  have hc : (':' : Char).toNat = 58 := rfl
  omega

theorem serialText_inj {m n : Option Int} (h : serialText m = serialText n) : m = n := by
  have hN : ∀ n : Int, pyStrInt n ≠ "None".toList := by
    intro n h
    have hm : 'N' ∈ pyStrInt n := by rw [h]; decide
    unfold pyStrInt at hm
    have key : ∀ k : Nat, 'N' ∉ pyStrNat k := by
      intro k hd
      obtain ⟨j, hj, he⟩ := mem_pyStrNat k 'N' hd
      have : ∀ k < 10, digitChar k ≠ 'N' := by decide
      exact this j hj he.symm
    split at hm
    · rcases List.mem_cons.mp hm with h | h
      · cases h
      · exact key _ h
    · exact key _ hm
  cases m <;> cases n
  · rfl
  · exact absurd h.symm (hN _)
  · exact absurd h (hN _)
  · rw [pyStrInt_inj h]

theorem identifier_iff (H : Bytes → Bytes) (i i' : Bytes) (m n : Option Int) : identifier H i m = identifier H i' n ↔ H i = H i' ∧ m = n := by
  have hs : ∀ m, ∀ d ∈ serialText m, d.toNat < 128 ∧ d ≠ ':' := by
    intro m
    cases m with
    | none => decide
    | some n => exact serialText_ascii n
  constructor
  · intro h
    obtain ⟨h1, h2⟩ := split_last (asciiBytes_colon (hs m)) (asciiBytes_colon (hs n)) h
    exact ⟨h1, serialText_inj (asciiBytes_inj (fun d hd => (hs m d hd).1) (fun d hd => (hs n d hd).1) h2)⟩
  · rintro ⟨h1, rfl⟩
    unfold identifier
    rw [h1]

/-- Two certificates have the same `issuer_serial` exactly if the hashes of their issuers and their serial numbers are the same, whatever was read of them
before. -/
theorem C60_same (H : Bytes → Bytes) (R R' : Reads V) (A A' : AuthorityReads V) (c c' : Source V) (i i' : Identity) (ops ops' : List SerialOp)
    (b b' : Bytes) (n n' : Int) (hb : i.issuer = .ok b) (hb' : i'.issuer = .ok b') (hn : i.serial = .ok n) (hn' : i'.serial = .ok n') :
    (issuerSerial H i (afterReads H R A c i ops).2).1 = (issuerSerial H i' (afterReads H R' A' c' i' ops').2).1 ↔ H b = H b' ∧ n = n' := by
  rw [own_reads, own_reads]
  simp only [ownOf, hb, hb', hn, hn', bind, Except.bind, Except.ok.injEq, identifier_iff, Option.some.injEq]

/-- The `authority_issuer_serial` of a certificate is the `issuer_serial` of another one, that of the authority, exactly if the extension gives a name with the
hash of the issuer of the other and its serial number. -/
theorem C60_finds (H : Bytes → Bytes) (R R' : Reads V) (A A' : AuthorityReads V) (c c' : Source V) (i i' : Identity) (ops ops' : List SerialOp)
    (l : List (Str × Option V × Bool)) (hl : readAll certificateAttrs c.exts = .ok l) (v : V) (hv : lastValue "authority_key_identifier".toList l = some v)
    (b b' : Bytes) (n : Option Int) (n' : Int) (g : List (Py FirstName)) (hg : A.issuers v = .ok (some (.ok (.directory (.ok b)) :: g))) (hn : A.serial v = .ok n)
    (hb' : i'.issuer = .ok b') (hn' : i'.serial = .ok n') :
    (∃ k, (authorityIssuerSerial H A c (afterReads H R A c i ops)).1 = .ok (some k) ∧ (issuerSerial H i' (afterReads H R' A' c' i' ops').2).1 = .ok k) ↔
      H b = H b' ∧ n = some n' := by
  rw [authority_reads, own_reads, authorityOfCert, hl]
  simp only [ownOf, authorityOf, bind, Except.bind, hv, hg, hn, hb', hn', Except.ok.injEq, Option.some.injEq, exists_eq_left']
  rw [eq_comm, identifier_iff]

/-- The first name of the extension has to be the directory name: if it is another kind of name there is AttributeError, although a directory name may follow. -/
theorem C60_order_fails (H : Bytes → Bytes) (R : Reads V) (A : AuthorityReads V) (c : Source V) (i : Identity) (ops : List SerialOp)
    (l : List (Str × Option V × Bool)) (hl : readAll certificateAttrs c.exts = .ok l) (v : V) (hv : lastValue "authority_key_identifier".toList l = some v)
    (g : List (Py FirstName)) (hg : A.issuers v = .ok (some (.ok .other :: g))) :
    (authorityIssuerSerial H A c (afterReads H R A c i ops)).1 = .error .attributeError := by
  rw [authority_reads, authorityOfCert, hl]
  simp only [authorityOf, bind, Except.bind, hv, hg]

/-- A name without serial number gives bytes that end with `:None`, not `None`. -/
theorem C60_serial_fails (H : Bytes → Bytes) (R : Reads V) (A : AuthorityReads V) (c : Source V) (i : Identity) (ops : List SerialOp)
    (l : List (Str × Option V × Bool)) (hl : readAll certificateAttrs c.exts = .ok l) (v : V) (hv : lastValue "authority_key_identifier".toList l = some v)
    (b : Bytes) (g : List (Py FirstName)) (hg : A.issuers v = .ok (some (.ok (.directory (.ok b)) :: g))) (hn : A.serial v = .ok none) :
    (authorityIssuerSerial H A c (afterReads H R A c i ops)).1 = .ok (some (H b ++ [58, 78, 111, 110, 101])) := by
  rw [authority_reads, authorityOfCert, hl]
  simp only [authorityOf, bind, Except.bind, hv, hg, hn]
  have : identifier H b none = H b ++ [58, 78, 111, 110, 101] := by
    unfold identifier
    rw [List.append_assoc]
    rfl
  rw [this]

/-- The explicitly tagged name in the extension: `untag()` of a CHOICE that has been read, with any tags around it, is written as its chosen SEQUENCE OF alone,
so the hash is that of the name as it stands in the certificate of the authority. -/
theorem C60_untag {E : Env} {c d : ClassId} {tagged : Option (Nat × Nat)} {alts : List Field} (hc : E.cls c = .choice [] tagged alts) {o : Obj Unit} {alt : Option Nat}
    {no : Obj Unit} {ch : Option (List Child)} {m : Bool} {w : TLV} (hm : (Val.node d no ch m).isMutated = false) (he : no.explicit = [])
    (hcs : no.contents = some w.contents) (ht : (no.cls, no.tag) = (w.cls, w.tag)) (hm' : w.method = 1) (hw : Asn1.Spec.DerHead w) (j : Nat) :
    ∃ v u, untag E (ops E (j + 2)) (.choice c o alt (some (.node d no ch m))) = .ok v ∧ (ops E (j + 2)).dump v false = .ok (w.bytes, u) := by
  injection ht with h1 h2
  have hdh := Asn1.derHead_dumpHeader hw
  rw [hm'] at hdh
  have htr : w.trailer = [] := by obtain ⟨_, _, _, _, _, h⟩ := hw; exact h
  have hr : checkRequired E d none = .ok () := by
    unfold checkRequired
    cases E.cls d <;> rfl
  have hn : nodeContents E (ops E j) d no ch m = .ok (no, ch, m) := by
    unfold nodeContents
    cases ch with
    | none => rfl
    | some cs => simp only [hm, Bool.false_eq_true, if_false]
  let q : Obj Unit := { cls := w.cls, method := 1, tag := w.tag, implicit := no.implicit, explicit := [], contents := some w.contents }
  let co : Obj Unit := { cls := o.cls, method := o.method, tag := o.tag, explicit := [], contents := some w.contents }
  refine ⟨.choice c co alt (some (.node d q none false)),
    .choice c { co with header := some [], contents := some w.bytes } alt (some (.node d { q with header := some w.header, trailer := [] } none false)), ?_, ?_⟩
  · unfold untag retag
    simp only [protoTagging, Val.classOf, hc, Shape.tagging]
    rw [ops_copyTo]
    simp only [copyStep, contentsStep, ops_contents, hn, bind, Except.bind, copyVal, Val.tagging, ops_copyTo, hcs, List.append_nil, he]
    simp only [Option.getD_some, h1, h2, co, q]
  · rw [ops_dump]
    simp only [dumpStep, choiceDump, choiceParse, bind, Except.bind, co, headerEnds80_none, Bool.or_false]
    rw [ops_dump]
    simp only [q, dumpStep, nodeDump, headerEnds80_none, Bool.or_false, Bool.false_and, Bool.false_eq_true, if_false, hr, nodeContents, bind, Except.bind,
      asn1Dump, hdh, wrapExplicit, TLV.bytes, htr, List.append_nil]
    rfl

/-- A CHOICE (class 1) of SEQUENCE OF (class 0), as `Name` is. -/
def nameEnv : Env where
  cls := fun c => if c = 1 then .choice [] none [⟨"", 0, {}⟩] else .seqOf { cls := 0, method := 1, tag := 16 } [] false (some 0)
  universal := fun _ => none

example : ∃ v u, untag nameEnv (ops nameEnv 2) (.choice 1 { cls := 0, method := 0, tag := 0, explicit := [(2, 4)], header := some [0xa4, 2], contents := some [0x30, 0] }
    (some 0) (some (.node 0 { cls := 0, method := 1, tag := 16, header := some [0x30, 0], contents := some [] } (some []) false))) = .ok v ∧
      (ops nameEnv 2).dump v false = .ok ([0x30, 0], u) :=
  C60_untag (w := ⟨0, 1, 16, [0x30, 0], [], []⟩) (tagged := none) (alts := [⟨"", 0, {}⟩]) rfl rfl rfl rfl rfl rfl
    (Asn1.Props.der_short (cl := 0) (m := 1) (tg := 16) (cs := []) (by omega) (by omega) (by omega) (by simp)) 0

/-- A certificate with serial number -5 whose authority key identifier names the issuer `30 00` and the serial number 17. -/
def akiSource : Source Unit := ⟨.ok [⟨.ok "authority_key_identifier".toList, .ok false, .ok ()⟩], .ok false⟩

/-- What is read of that extension. -/
def akiReads : AuthorityReads Unit := ⟨fun _ => .ok (some [.ok (.directory (.ok [0x30, 0]))]), fun _ => .ok (some 17)⟩

example : readAll certificateAttrs akiSource.exts = .ok [("authority_key_identifier".toList, some (), false)] ∧
    (authorityIssuerSerial (fun b => b) akiReads akiSource (State.new, {})).1 = .ok (some [0x30, 0, 58, 49, 55]) ∧
    (issuerSerial (fun b => b) ⟨.ok [0x30, 0], .ok 17⟩ {}).1 = .ok [0x30, 0, 58, 49, 55] ∧
    (issuerSerial (fun b => b) ⟨.ok [0x30, 0], .ok (-5)⟩ {}).1 = .ok [0x30, 0, 58, 45, 53] := by
  refine ⟨by kernel_rfl, by kernel_rfl, by kernel_rfl, by kernel_rfl⟩

end Asn1.Cert
