import Verif.Model.Shortcuts
import Verif.Lemmas.Keep
import Verif.Lemmas.KernelRfl
import Verif.Props.C15

/-!
# C76 — Short ways into messages are the long ways

`authenticatedSafe`, `decompressed`, `basicResponse`, `responseData` and `humanFriendly` (Model/Shortcuts.lean) are the attributes of the same names.
-/

namespace Asn1.Props
open Asn1 Pkg

/-- `Reached E r v names x`: reading the fields with these names one inside the other gives `x`. -/
inductive Reached (E : Env) (r : Ops) : Val → List String → Val → Prop
  | here {v : Val} : Reached E r v [] v
  | inside {v v' x y : Val} {n : String} {ns : List String} : getNamed E r v n = .ok (x, v') → Reached E r x ns y → Reached E r v (n :: ns) y

theorem Reached.path {α : Type} {E : Env} {r : Ops} {f : Val → Py (α × Val)} {v y y' : Val} {ns : List String} {a : α} (h : Reached E r v ns y)
    (hf : f y = .ok (a, y')) : ∃ v', onPath E r f ns v = .ok (a, v') := by
  induction h with
  | here => exact ⟨y', hf⟩
  | @inside v v' x y n ns h1 _ ih =>
    obtain ⟨x', h2⟩ := ih hf
    exact ⟨putNamed E v' n x', by simp only [Pkg.onPath, h1, h2, bind, Except.bind]⟩

theorem Reached.path_error {α : Type} {E : Env} {r : Ops} {f : Val → Py (α × Val)} {v y : Val} {ns : List String} {e : PyErr} (h : Reached E r v ns y)
    (hf : f y = .error e) : onPath E r f ns v = .error e := by
  induction h with
  | here => exact hf
  | inside h1 _ ih => simp only [Pkg.onPath, h1, ih hf, bind, Except.bind]

theorem getNamed_ok {E : Env} {r : Ops} {v v' x : Val} {n : String} (h : getNamed E r v n = .ok (x, v')) :
    (∃ k, getItem E r v k = .ok (x, v')) ∧
    ∀ z, Access E false x z → ∀ top, Access E top v' (putNamed E v' n z) := by
  unfold getNamed at h
  split at h
  case h_2 => cases h
  next c o ch mu =>
  split at h
  case h_2 => cases h
  next proto bad isSet fields oid hE =>
  obtain ⟨cs, h1, h⟩ := py_bind.mp h
  split at h
  case h_1 => cases h
  next k hk =>
  refine ⟨⟨k, h⟩, fun z hz top => ?_⟩
  simp only [getItem, h1, bind, Except.bind, hE] at h
  cases hc : cs[k]? with
  | none => simp [hc] at h
  | some y =>
    simp only [hc] at h
    cases hb : buildChild r (paramsAt fields k) y with
    | error e => simp [hb] at h
    | ok w =>
      simp only [hb] at h
      cases h
      have hlt : k < cs.length := (List.getElem?_eq_some_iff.mp hc).1
      simp only [putNamed, hE, hk]
      exact .child (x := x) (by rw [List.getElem?_set_self hlt]) hz

theorem onPath_access {α : Type} {E : Env} {n : Nat} {f : Val → Py (α × Val)} (hf : ∀ top v a v', f v = .ok (a, v') → Access E top v v') :
    ∀ (ns : List String) (top : Bool) (v v' : Val) (a : α), onPath E (ops E n) f ns v = .ok (a, v') → Access E top v v'
  | [], top, v, v', a, h => hf top v a v' h
  | m :: ns, top, v, v', a, h => by
    simp only [Pkg.onPath, py_bind] at h
    obtain ⟨⟨x, w⟩, h1, ⟨b, y⟩, h2, h3⟩ := h
    cases h3
    obtain ⟨⟨k, g1⟩, g2⟩ := getNamed_ok h1
    exact .trans (.item g1) (g2 y (onPath_access hf ns false x y _ h2) top)

theorem nativeOctets_access {E : Env} {n : Nat} (top : Bool) (v : Val) (a : Bytes) (v' : Val) (h : nativeOctets (ops E n) v = .ok (a, v')) : Access E top v v' := by
  simp only [nativeOctets, py_bind] at h
  obtain ⟨⟨x, w⟩, h1, h⟩ := h
  simp only at h
  split at h
  · cases h; exact .native h1
  · cases h

theorem parsedOf_access {E : Env} {n : Nat} (top : Bool) (v : Val) (a v' : Val) (h : parsedOf E (ops E n) v = .ok (a, v')) : Access E top v v' := by
  unfold parsedOf at h
  split at h
  · cases h; exact .refl
  · cases h; exact .refl
  · next h1 h2 =>
    unfold parseAs at h
    split at h
    · next c o p s =>
      cases p with
      | none => exact .anyParsed h
      | some p => exact absurd rfl (h1 c o p s)
    · exact .strParse h
    · cases h

/-! ### PKCS#12 files -/

/-- The `AuthenticatedSafe` of a PKCS#12 file with a password is what its octets, which reading the fields gives, load as. Missing from the property: files
that are signed, see `C76_signed_fails`. -/
theorem C76_safe_partial {E : Env} {r : Ops} {v x x' : Val} {b : Bytes} (h : Reached E r v ["auth_safe", "content"] x) (hx : x.classOf ≠ some Id.cms.SignedData)
    (hn : r.native x = .ok (.scalar (.bytes b), x')) :
    (authenticatedSafe E r ⟨v, none⟩).map Prod.fst = loadVal E r Id.pkcs12.AuthenticatedSafe {} b := by
  have hf : safeOctets E r x = .ok (b, x') := by
    simp only [safeOctets, if_neg hx, nativeOctets, hn, bind, Except.bind]
  obtain ⟨v', h1⟩ := h.path hf
  simp only [authenticatedSafe, h1, bind, Except.bind]
  cases loadVal E r Id.pkcs12.AuthenticatedSafe {} b <;> rfl

/-- Asking again gives the same. -/
theorem C76_safe_again {E : Env} {r r' : Ops} {s s' : Cached Val} {a : Val} (h : authenticatedSafe E r s = .ok (a, s')) :
    authenticatedSafe E r' s' = .ok (a, s') := by
  unfold authenticatedSafe at h
  split at h
  · next hc => cases h; simp only [authenticatedSafe, hc]
  · obtain ⟨⟨b, v⟩, h1, h⟩ := py_bind.mp h
    obtain ⟨a', h2, h⟩ := py_bind.mp h
    cases h
    rfl

/-- Asking is reading: it leaves the encoding as it is (`C15`). -/
theorem C76_safe_reads {E : Env} {n : Nat} {s s' : Cached Val} {a : Val} {top : Bool} (h : authenticatedSafe E (ops E n) s = .ok (a, s')) :
    Access E top s.value s'.value := by
  unfold authenticatedSafe at h
  split at h
  · cases h; exact .refl
  · obtain ⟨⟨b, v⟩, h1, h⟩ := py_bind.mp h
    obtain ⟨a', h2, h⟩ := py_bind.mp h
    cases h
    refine onPath_access (fun top v a v' h => ?_) _ _ _ _ _ h1
    unfold safeOctets at h
    split at h
    · exact onPath_access (fun top v a v' h => nativeOctets_access top v a v' h) _ _ _ _ _ h
    · exact nativeOctets_access top v a v' h

/-- **The property fails for signed PKCS#12 files.** For none of them is there an `AuthenticatedSafe`: the field asked for is called `encap_content_info`, and
`KeyError` is raised whenever the signed content can be read at all. -/
theorem C76_signed_fails (K : Codecs) {r : Ops} {v x : Val} (h : Reached (env K) r v ["auth_safe", "content"] x) (hx : x.classOf = some Id.cms.SignedData) :
    (∃ e, authenticatedSafe (env K) r ⟨v, none⟩ = .error e) ∧
    (∀ o ch mu cs, x = .node Id.cms.SignedData o ch mu → ensureChildren (env K) r Id.cms.SignedData o ch = .ok cs →
      authenticatedSafe (env K) r ⟨v, none⟩ = .error .keyError) := by
  have key : ∀ e, getNamed (env K) r x "content_info" = .error e → authenticatedSafe (env K) r ⟨v, none⟩ = .error e := by
    intro e he
    have hf : safeOctets (env K) r x = .error e := by
      simp only [safeOctets, if_pos hx, Pkg.onPath, he, bind, Except.bind]
    simp only [authenticatedSafe, h.path_error hf, bind, Except.bind]
  have hE : (env K).cls Id.cms.SignedData = cms.SignedData := by kernel_rfl
  have hcls : ∃ proto bad isSet fields oid, (env K).cls Id.cms.SignedData = .seq proto bad isSet fields oid ∧ fieldIndex fields "content_info" = none :=
    ⟨_, _, _, _, _, hE, by decide +kernel⟩
  obtain ⟨proto, bad, isSet, fields, oid, hc, hi⟩ := hcls
  constructor
  · have : ∃ e, getNamed (env K) r x "content_info" = .error e := by
      unfold getNamed
      split
      · next c o ch mu =>
        have hx : c = Id.cms.SignedData := Option.some.inj hx
        subst hx
        rw [hc]
        simp only [bind, Except.bind]
        cases ensureChildren (env K) r Id.cms.SignedData o ch with
        | error e => exact ⟨e, rfl⟩
        | ok cs => exact ⟨.keyError, by simp only [hi]⟩
      · exact ⟨_, rfl⟩
    obtain ⟨e, he⟩ := this
    exact ⟨e, key e he⟩
  · rintro o ch mu cs rfl hcs
    exact key _ (by simp only [getNamed, hc, bind, Except.bind, hcs, hi])

/-- A PKCS#12 file: version 3, the octets of the safe in a message of the type `data`. -/
def pfxBytes (safe : Bytes) : Bytes :=
  let s := [0x04, UInt8.ofNat safe.length] ++ safe
  let e := [0xa0, UInt8.ofNat s.length] ++ s
  let oid := [0x06, 0x09, 0x2a, 0x86, 0x48, 0x86, 0xf7, 0x0d, 0x01, 0x07, 0x01]
  let m := [0x30, UInt8.ofNat (oid.length + e.length)] ++ oid ++ e
  [0x30, UInt8.ofNat (3 + m.length), 0x02, 0x01, 0x03] ++ m

/-- Reading `authenticated_safe`, perhaps putting the `auth_safe` of another file in place, and reading again: the encodings of both answers. -/
def askSafe (K : Codecs) (first second : Bytes) : Py (Bytes × Bytes) := do
  let r := ops (env K) 9
  let v ← loadVal (env K) r Id.pkcs12.Pfx {} (pfxBytes first)
  let w ← loadVal (env K) r Id.pkcs12.Pfx {} (pfxBytes second)
  let (a, s) ← authenticatedSafe (env K) r ⟨v, none⟩
  let (b, _) ← r.dump a false
  let (x, _) ← getItem (env K) r w 1
  let v ← setField (env K) r s.value 1 (.asn1 x)
  let (a, _) ← authenticatedSafe (env K) r ⟨v, s.cache⟩
  let (b', _) ← r.dump a false
  .ok (b, b')

/-- **It fails after an assignment**: the answer is still that of the file before. -/
theorem C76_stale_fails (K : Codecs) : askSafe K [0x30, 0] [0x30, 2, 0x30, 0] = .ok ([0x30, 0], [0x30, 0]) := by kernel_rfl

/-- Non-vacuity: the content of a file is reached, it is no `SignedData`, and its native value are the octets. -/
example (K : Codecs) : (do
    let r := ops (env K) 9
    let v ← loadVal (env K) r Id.pkcs12.Pfx {} (pfxBytes [0x30, 0])
    let (x, _) ← getNamed (env K) r v "auth_safe"
    let (y, _) ← getNamed (env K) r x "content"
    let (n, _) ← r.native y
    .ok (y.classOf, n) : Py _) = .ok (some Id.core.OctetString, .scalar (.bytes [0x30, 0])) := by kernel_rfl

/-- A signed file: its content is reached, and it can be read, but `authenticated_safe` raises `KeyError`. -/
example (K : Codecs) : (do
    let r := ops (env K) 9
    let v ← loadVal (env K) r Id.pkcs12.Pfx {} ([0x30, 0x28, 2, 1, 3, 0x30, 0x23, 6, 9, 0x2a, 0x86, 0x48, 0x86, 0xf7, 0x0d, 1, 7, 2, 0xa0, 0x16, 0x30, 0x14] ++
      [2, 1, 1, 0x31, 0, 0x30, 0x0b, 6, 9, 0x2a, 0x86, 0x48, 0x86, 0xf7, 0x0d, 1, 7, 1, 0x31, 0])
    let (x, _) ← getNamed (env K) r v "auth_safe"
    let (y, _) ← getNamed (env K) r x "content"
    let (z, _) ← getNamed (env K) r y "encap_content_info"
    match authenticatedSafe (env K) r ⟨v, none⟩ with
    | .ok _ => .ok none
    | .error e => .ok (some (y.classOf, z.classOf, e)) : Py _) = .ok (some (some Id.cms.SignedData, some Id.cms.ContentInfo, .keyError)) := by kernel_rfl

/-! ### Compressed messages -/

/-- The decompressed content is what the compression library makes of the octets that reading the fields gives. -/
theorem C76_decompressed {E : Env} {r : Ops} (inflate : Bytes → Py Bytes) {v x x' : Val} {b : Bytes} (h : Reached E r v ["encap_content_info", "content"] x)
    (hn : r.native x = .ok (.scalar (.bytes b), x')) : (decompressed E r inflate ⟨v, none⟩).map Prod.fst = inflate b := by
  have hf : nativeOctets r x = .ok (b, x') := by simp only [nativeOctets, hn, bind, Except.bind]
  obtain ⟨v', h1⟩ := h.path hf
  simp only [decompressed, h1, bind, Except.bind]
  cases inflate b <;> rfl

/-- Asking again gives the same. -/
theorem C76_decompressed_again {E : Env} {r r' : Ops} {inflate : Bytes → Py Bytes} {s s' : Cached Bytes} {a : Bytes}
    (h : decompressed E r inflate s = .ok (a, s')) : decompressed E r' inflate s' = .ok (a, s') := by
  unfold decompressed at h
  split at h
  · next hc => cases h; simp only [decompressed, hc]
  · obtain ⟨⟨b, v⟩, h1, h⟩ := py_bind.mp h
    obtain ⟨a', h2, h⟩ := py_bind.mp h
    cases h
    rfl

/-- Asking is reading. -/
theorem C76_decompressed_reads {E : Env} {n : Nat} {inflate : Bytes → Py Bytes} {s s' : Cached Bytes} {a : Bytes} {top : Bool}
    (h : decompressed E (ops E n) inflate s = .ok (a, s')) : Access E top s.value s'.value := by
  unfold decompressed at h
  split at h
  · cases h; exact .refl
  · obtain ⟨⟨b, v⟩, h1, h⟩ := py_bind.mp h
    obtain ⟨a', h2, h⟩ := py_bind.mp h
    cases h
    exact onPath_access (fun top v a v' h => nativeOctets_access top v a v' h) _ _ _ _ _ h1

/-- Non-vacuity: a compressed message whose content is reached. -/
example (K : Codecs) : (do
    let r := ops (env K) 9
    let v ← loadVal (env K) r Id.cms.CompressedData {} ([0x30, 0x26, 2, 1, 0, 0x30, 0x0d, 6, 0x0b, 0x2a, 0x86, 0x48, 0x86, 0xf7, 0x0d, 1, 9, 0x10, 3, 8] ++
      [0x30, 0x12, 6, 9, 0x2a, 0x86, 0x48, 0x86, 0xf7, 0x0d, 1, 7, 1, 0xa0, 5, 4, 3, 7, 8, 9])
    let (x, _) ← getNamed (env K) r v "encap_content_info"
    let (y, _) ← getNamed (env K) r x "content"
    let (n, _) ← r.native y
    .ok n : Py _) = .ok (.scalar (.bytes [7, 8, 9])) := by kernel_rfl

/-! ### OCSP responses -/

/-- The basic response is what the octets of the response are parsed as, and its data the first field. Missing from the property: responses without response
bytes, see `C76_absent_fails`. -/
theorem C76_response_partial {E : Env} {r : Ops} {v x x' y y' z : Val} (h : Reached E r v ["response_bytes", "response"] x)
    (hp : parsedOf E r x = .ok (y, x')) (hd : getNamed E r y "tbs_response_data" = .ok (z, y')) :
    ∃ v', basicResponse E r v = .ok (y, v') ∧ responseData E r v = .ok (z, v') := by
  obtain ⟨v', h1⟩ := h.path (f := parsedOf E r) hp
  refine ⟨v', h1, ?_⟩
  have h1 : basicResponse E r v = .ok (y, v') := h1
  simp only [responseData, h1, hd, bind, Except.bind]

/-- Asking is reading. -/
theorem C76_response_reads {E : Env} {n : Nat} {v v' a : Val} {top : Bool} (h : basicResponse E (ops E n) v = .ok (a, v') ∨ responseData E (ops E n) v = .ok (a, v')) :
    Access E top v v' := by
  have key : ∀ a v', basicResponse E (ops E n) v = .ok (a, v') → Access E top v v' :=
    fun a v' h => onPath_access (fun top v a v' h => parsedOf_access top v a v' h) _ _ _ _ _ h
  rcases h with h | h
  · exact key a v' h
  · obtain ⟨⟨x, w⟩, h1, h⟩ := py_bind.mp h
    obtain ⟨⟨y, z⟩, h2, h⟩ := py_bind.mp h
    cases h
    exact key _ _ h1

/-- **The property fails for responses that only have a status**, as all that report errors: both attributes raise `TypeError`, where the documentation has
`None`. -/
theorem C76_absent_fails {E : Env} {r : Ops} {v : Val} (h : Reached E r v ["response_bytes"] .void) :
    basicResponse E r v = .error .typeError ∧ responseData E r v = .error .typeError := by
  have h1 : basicResponse E r v = .error .typeError := by
    cases h with
    | inside h1 h2 =>
      cases h2
      have h0 : getNamed E r .void "response" = .error .typeError := rfl
      simp only [basicResponse, Pkg.onPath, h1, h0, bind, Except.bind]
  exact ⟨h1, by simp only [responseData, h1, bind, Except.bind]⟩

/-- Non-vacuity: the response `internal_error`. -/
example (K : Codecs) : (do
    let r := ops (env K) 9
    let v ← loadVal (env K) r Id.ocsp.OCSPResponse {} [0x30, 3, 0x0a, 1, 2]
    let (x, _) ← getNamed (env K) r v "response_bytes"
    .ok x : Py _) = .ok .void := by kernel_rfl

/-! ### Reasons -/

/-- Each reason that the package names has a text of its own. -/
theorem C76_reason (K : Codecs) : ∃ (m : IntMap) (o : Obj IntNative) (bad : List Nat), (env K).cls Id.crl.CRLReason = .leaf (.enumerated (some m) o) bad ∧
    (∀ r v v' k name, (k, name) ∈ m → r.native v = .ok (.scalar (.str name.toList), v') → ∃ t, humanFriendly r v = .ok (t, v')) ∧
    (∀ r v v' w w' s s' t, r.native v = .ok (.scalar (.str s), v') → r.native w = .ok (.scalar (.str s'), w') →
      humanFriendly r v = .ok (t, v') → humanFriendly r w = .ok (t, w') → s = s') := by
  have hE : (env K).cls Id.crl.CRLReason = crl.CRLReason := by kernel_rfl
  refine ⟨_, _, _, hE, ?_, ?_⟩
  · intro r v v' k name hm hn
    have hall : ∀ e ∈ ([(0, "unspecified"), (1, "key_compromise"), (2, "ca_compromise"), (3, "affiliation_changed"), (4, "superseded"),
        (5, "cessation_of_operation"), (6, "certificate_hold"), (8, "remove_from_crl"), (9, "privilege_withdrawn"), (10, "aa_compromise")] : List (Int × String)),
        (reasonTexts.lookup e.2.toList).isSome = true := by decide +kernel
    obtain ⟨t, ht⟩ := Option.isSome_iff_exists.mp (hall _ hm)
    exact ⟨t, by simp only [humanFriendly, hn, bind, Except.bind, ht]⟩
  · intro r v v' w w' s s' t h1 h2 h3 h4
    simp only [humanFriendly, h1, h2, bind, Except.bind] at h3 h4
    cases hs : reasonTexts.lookup s with
    | none => simp [hs] at h3
    | some a =>
      cases hs' : reasonTexts.lookup s' with
      | none => simp [hs'] at h4
      | some b =>
        simp only [hs] at h3
        simp only [hs'] at h4
        injection h3 with h3
        injection h3 with h3 _
        injection h4 with h4
        injection h4 with h4 _
        subst h3
        subst h4
        have hmem : ∀ {l : List (Str × Str)} {s b : Str}, l.lookup s = some b → (s, b) ∈ l := by
          intro l s b
          induction l with
          | nil => intro h; cases h
          | cons e l ih =>
            intro h
            rw [List.lookup_cons] at h
            split at h
            · next he =>
              have he : s = e.1 := by simpa using he
              cases h
              subst he
              exact List.mem_cons_self ..
            · exact List.mem_cons_of_mem _ (ih h)
        have hinj : ∀ x ∈ reasonTexts, ∀ y ∈ reasonTexts, x.2 = y.2 → x.1 = y.1 := by decide +kernel
        exact hinj _ (hmem hs) _ (hmem hs') rfl

end Asn1.Props
