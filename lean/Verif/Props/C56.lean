import Verif.Lemmas.GenName
import Verif.Props.C35
import Verif.Lemmas.KernelRfl

/-!
# C56 — E-mail addresses, DNS names and general names

Text that is written can be read again, and comparison takes notice of what it should. The IDNA codec and the lower case of text that
is not ASCII are parameters (`Lib`).
-/

namespace Asn1.Props
open Asn1 Spec GenName GenName.Spec Names.Spec
open _root_.Asn1.Url hiding Lib

/-- The instance has the text `s`. -/
def HasText (k : Codec) (o : Obj Str) (s : Str) : Prop := ∃ o', GenName.read k o = .ok (some s, o')

/-! ### Writing and reading -/

theorem codec_round_trip {k : Codec} {s : Str} {c : Bytes} (he : k.encode s = .ok c) (hd : k.decode c = .ok s) (p : Obj Str) (hp : Blank p) :
    ∃ o, AbstractString.set k p s = .ok o ∧ HasText k o s ∧
      ∀ b o1 strict, asn1Dump true o = .ok (b, o1) → Fits b →
        (∃ h, b = h ++ c) ∧ ∃ w, AbstractString.load p b strict = .ok w ∧ HasText k w s := by
  have hind : p.indefinite = false := by rw [hp.isProto]; rfl
  have hset : AbstractString.set k p s = .ok (p.put s c) := by
    simp only [AbstractString.set, he, bind, Except.bind, pure, Except.pure, strPut, Obj.put, hind]
    congr 1
  refine ⟨_, hset, ⟨_, rfl⟩, ?_⟩
  intro b o1 strict hdump hf
  obtain ⟨hdr, hb, hl⟩ := load_dump_put (bad := []) hp strict hdump hf
  refine ⟨⟨hdr, hb⟩, _, hl, { p.loaded hdr c with native := some s }, ?_⟩
  simp only [GenName.read, AbstractString.native, Obj.loaded, hind]
  simp only [mergeObj, mergeChunks, OctetString.asChunk, bind, Except.bind, hd, pure, Except.pure]

/-- An e-mail address is written in ASCII as it is, and read again. -/
theorem C56_mail_round_trip (L : Lib) (s : Str) (hs : MailText s) (p : Obj Str) (hp : Blank p) :
    ∃ c, Octets s c ∧ ∃ o, AbstractString.set (mail L) p s = .ok o ∧ HasText (mail L) o s ∧
      ∀ b o1 strict, asn1Dump true o = .ok (b, o1) → Fits b →
        (∃ h, b = h ++ c) ∧ ∃ w, AbstractString.load p b strict = .ok w ∧ HasText (mail L) w s :=
  ⟨octets s, text_octets (mail_ascii hs), codec_round_trip (mail_encode L hs) (mail_decode L hs) p hp⟩

/-- A DNS name is written in ASCII as it is, and read again. -/
theorem C56_dns_round_trip (L : Lib) (s : Str) (hs : DnsText s) (p : Obj Str) (hp : Blank p) :
    ∃ c, Octets s c ∧ ∃ o, AbstractString.set (dns L) p s = .ok o ∧ HasText (dns L) o s ∧
      ∀ b o1 strict, asn1Dump true o = .ok (b, o1) → Fits b →
        (∃ h, b = h ++ c) ∧ ∃ w, AbstractString.load p b strict = .ok w ∧ HasText (dns L) w s :=
  ⟨octets s, text_octets (dns_ascii hs), codec_round_trip (dns_encode L hs) (dns_decode L hs) p hp⟩

/-! ### Comparison of one kind of names -/

theorem read_some {k : Codec} {o o' : Obj Str} {s : Str} (h : GenName.read k o = .ok (some s, o')) :
    o'.contents = o.contents ∧ o'.contents ≠ none ∧ o'.native = some s := by
  simp only [GenName.read, AbstractString.native] at h
  cases hc : o.contents with
  | none => rw [hc] at h; cases h
  | some c =>
    simp only [hc] at h
    cases hn : o.native with
    | some t =>
      simp only [hn] at h
      cases h
      exact ⟨hc, by simp [hc], hn⟩
    | none =>
      simp only [hn, bind, Except.bind] at h
      split at h
      · cases h
      · split at h
        · cases h
        · cases h
          exact ⟨rfl, by simp, rfl⟩

theorem read_read {k : Codec} {o o' : Obj Str} {s : Option Str} (h : GenName.read k o = .ok (s, o')) : GenName.read k o' = .ok (s, o') := by
  cases s with
  | none =>
    simp only [GenName.read, AbstractString.native] at h ⊢
    cases hc : o.contents with
    | none =>
      simp only [hc] at h
      cases h
      simp only [hc]
    | some c =>
      simp only [hc] at h
      cases hn : o.native with
      | some t => simp only [hn] at h; cases h
      | none =>
        simp only [hn, bind, Except.bind] at h
        split at h
        · cases h
        · split at h <;> cases h
  | some s =>
    obtain ⟨_, h2, h3⟩ := read_some h
    simp only [GenName.read, AbstractString.native]
    cases hc : o'.contents with
    | none => exact absurd hc h2
    | some c => simp only [h3]

theorem normalize_ok {L : Lib} {o : Obj Str} {s : Str} {c : Bytes} (h : HasText (mail L) o s) (he : (mail L).encode s = .ok c) :
    ∃ o', normalize L o = .ok o' ∧ o'.contents = some c ∧ o'.native = some s := by
  obtain ⟨o1, h1⟩ := h
  refine ⟨strPut o1 s c, ?_, rfl, rfl⟩
  simp only [normalize, h1, AbstractString.set, he, bind, Except.bind, pure, Except.pure]

theorem hasText_put {k : Codec} {o : Obj Str} {s : Str} {c : Bytes} (hc : o.contents = some c) (hn : o.native = some s) : HasText k o s :=
  ⟨o, by simp only [GenName.read, AbstractString.native, hc, hn]⟩

/-- Comparison of e-mail addresses that can be written: it says whether they are the same in ASCII, where case matters only before the
last `@`, and does not change the texts. -/
theorem C56_mail_octets (L : Lib) (a b : Obj Str) (s t : Str) (c d : Bytes) (ha : HasText (mail L) a s) (hb : HasText (mail L) b t)
    (hc : (mail L).encode s = .ok c) (hd : (mail L).encode t = .ok d) :
    ∃ r a' b', mailEq L a b = .ok (r, a', b') ∧ (r = true ↔ SameMailOctets c d) ∧
      HasText (mail L) a' s ∧ HasText (mail L) b' t ∧ a'.contents = some c ∧ b'.contents = some d := by
  obtain ⟨a', ha', ca, na⟩ := normalize_ok ha hc
  obtain ⟨b', hb', cb, nb⟩ := normalize_ok hb hd
  refine ⟨_, a', b', ?_, mailCompare_iff c d, hasText_put ca na, hasText_put cb nb, ca, cb⟩
  simp only [mailEq, ha', hb', bind, Except.bind, ca, cb, Option.getD_some]

/-- Comparison of e-mail addresses in ASCII. -/
theorem C56_mail (L : Lib) (a b : Obj Str) (s t : Str) (hs : MailText s) (ht : MailText t) (ha : HasText (mail L) a s)
    (hb : HasText (mail L) b t) :
    ∃ r a' b', mailEq L a b = .ok (r, a', b') ∧ (r = true ↔ SameMail s t) ∧ HasText (mail L) a' s ∧ HasText (mail L) b' t := by
  obtain ⟨r, a', b', h1, h2, h3, h4, _⟩ := C56_mail_octets L a b s t _ _ ha hb (mail_encode L hs) (mail_encode L ht)
  exact ⟨r, a', b', h1, h2.trans (sameMail_octets (mail_ascii hs) (mail_ascii ht)), h3, h4⟩

/-- Comparison of DNS names. -/
theorem C56_dns (L : Lib) (a b : Obj Str) (s t : Str) (hs : ∀ c ∈ s, c.toNat < 128) (ht : ∀ c ∈ t, c.toNat < 128)
    (ha : HasText (dns L) a s) (hb : HasText (dns L) b t) :
    ∃ r a' b', dnsEq L a b = .ok (r, a', b') ∧ (r = true ↔ SameLetters s t) ∧
      a'.contents = a.contents ∧ b'.contents = b.contents ∧ HasText (dns L) a' s ∧ HasText (dns L) b' t := by
  obtain ⟨a', ha⟩ := ha
  obtain ⟨b', hb⟩ := hb
  refine ⟨decide (lower L.toLib s = lower L.toLib t), a', b', ?_, ?_, (read_some ha).1, (read_some hb).1, ⟨_, read_read ha⟩, ⟨_, read_read hb⟩⟩
  · simp only [dnsEq, ha, hb, bind, Except.bind, Option.getD_some]
  · rw [decide_eq_true_eq, lower, lower, if_pos (isAscii_iff.mpr hs), if_pos (isAscii_iff.mpr ht)]; rfl

/-- Comparison of IP addresses: the octets. -/
theorem C56_ip (a b a1 b1 : Obj Bytes) (s t : Bytes) (ha : OctetString.native a = .ok (some s, a1)) (hb : OctetString.native b = .ok (some t, b1)) :
    ∃ r, ipEq a b = .ok (r, a1, b1) ∧ (r = true ↔ s = t) := by
  refine ⟨decide (s = t), ?_, decide_eq_true_iff⟩
  simp only [ipEq, ha, hb, bind, Except.bind, Option.getD_some]

/-! ### General names -/

/-- What a general name says. -/
inductive Meant where
  | mail (s : Str)
  | dns (s : Str)
  | directory (words : List (List (Str × List Str)))
  | uri (normal : Bytes)
  | ip (b : Bytes)
  | registered (contents : Bytes)

/-- The same name of the same kind. -/
inductive Meant.Same : Meant → Meant → Prop
  | mail {s t : Str} : SameMail s t → Same (.mail s) (.mail t)
  | dns {s t : Str} : SameLetters s t → Same (.dns s) (.dns t)
  | directory {a b : List (List (Str × List Str))} : SameName a b → Same (.directory a) (.directory b)
  | uri (u : Bytes) : Same (.uri u) (.uri u)
  | ip (b : Bytes) : Same (.ip b) (.ip b)
  | registered (b : Bytes) : Same (.registered b) (.registered b)

/-- A general name says this. For URIs the normalised form counts. -/
inductive Says (L : Lib) : Chosen → Meant → Prop
  | mail {o : Obj Str} {s : Str} : HasText (mail L) o s → MailText s → Says L (.mail o) (.mail s)
  | dns {o : Obj Str} {s : Str} : HasText (dns L) o s → (∀ c ∈ s, c.toNat < 128) → Says L (.dns o) (.dns s)
  | directory {n : List (List Names.Attr)} : DistinctAttrs n → PrintableName n → Says L (.directory n) (.directory (wordsOf n))
  | uri {o : Obj Str} {s : Str} {u : Bytes} : HasText (uri L) o s → iriToUri L.toLib s true = .ok u → Says L (.uri o) (.uri u)
  | ip {o o' : Obj Bytes} {b : Bytes} : OctetString.native o = .ok (some b, o') → Says L (.ip o) (.ip b)
  | registered {c : Bytes} : Says L (.registered (some c)) (.registered c)

theorem nameEq_ok {L : Lib} {a b a' b' : Chosen} {r : Bool} (h : nameEq L a b = .ok (r, a', b')) :
    a.name ∉ refused ∧ b.name ∉ refused ∧
      ((a.name ≠ b.name ∧ r = false ∧ a' = a ∧ b' = b) ∨ (a.name = b.name ∧ chosenEq L a b = .ok (r, a', b'))) := by
  unfold nameEq at h
  split at h
  · cases h
  · next h1 =>
    split at h
    · cases h
    · next h2 =>
      refine ⟨h1, h2, ?_⟩
      split at h
      · next h3 => cases h; exact .inl ⟨h3, rfl, rfl, rfl⟩
      · next h3 => exact .inr ⟨not_not.mp h3, h⟩

theorem nameEq_same {L : Lib} {a b : Chosen} (h : a.name ∉ refused) (hn : a.name = b.name) : nameEq L a b = chosenEq L a b := by
  unfold nameEq
  rw [if_neg h, if_neg (hn ▸ h), if_neg (not_not.mpr hn)]

theorem nameEq_other {L : Lib} {a b : Chosen} (h : a.name ∉ refused) (h' : b.name ∉ refused) (hn : a.name ≠ b.name) :
    nameEq L a b = .ok (false, a, b) := by
  unfold nameEq
  rw [if_neg h, if_neg h', if_pos hn]

theorem sameMailOctets_symm {c d : Bytes} (h : SameMailOctets c d) : SameMailOctets d c := by
  rcases h with h | ⟨m, h, h', h1, h2, h3, h4, h5⟩
  · exact .inl h.symm
  · exact .inr ⟨m, h', h, h2, h1, h4, h3, h5.symm⟩

theorem sameMailOctets_trans {c d e : Bytes} (h : SameMailOctets c d) (g : SameMailOctets d e) : SameMailOctets c e := by
  rcases h with rfl | ⟨m, h, h', h1, h2, h3, h4, h5⟩
  · exact g
  · rcases g with rfl | ⟨n, g, g', g1, g2, g3, g4, g5⟩
    · exact .inr ⟨m, h, h', h1, h2, h3, h4, h5⟩
    · have e1 := rsplit_some.mpr ⟨h2, h4⟩
      have e2 := rsplit_some.mpr ⟨g1, g3⟩
      rw [e1] at e2
      cases e2
      exact .inr ⟨m, h, g', h1, g2, h3, g4, h5.trans g5⟩

theorem mailCompare_symm (c d : Bytes) : mailCompare c d = mailCompare d c := by
  rw [Bool.eq_iff_iff, mailCompare_iff, mailCompare_iff]
  exact ⟨sameMailOctets_symm, sameMailOctets_symm⟩

theorem mailEq_ok {L : Lib} {a b a' b' : Obj Str} {r : Bool} (h : mailEq L a b = .ok (r, a', b')) :
    normalize L a = .ok a' ∧ normalize L b = .ok b' ∧ r = mailCompare (a'.contents.getD []) (b'.contents.getD []) := by
  simp only [mailEq, bind, Except.bind] at h
  split at h
  · cases h
  · next ha =>
    split at h
    · cases h
    · next hb => cases h; exact ⟨ha, hb, rfl⟩

theorem mailEq_of {L : Lib} {a b a' b' : Obj Str} (ha : normalize L a = .ok a') (hb : normalize L b = .ok b') :
    mailEq L a b = .ok (mailCompare (a'.contents.getD []) (b'.contents.getD []), a', b') := by
  simp only [mailEq, ha, hb, bind, Except.bind]

theorem dnsEq_ok {L : Lib} {a b a' b' : Obj Str} {r : Bool} (h : dnsEq L a b = .ok (r, a', b')) :
    ∃ s t, GenName.read (dns L) a = .ok (s, a') ∧ GenName.read (dns L) b = .ok (t, b') ∧
      r = decide (lower L.toLib (s.getD []) = lower L.toLib (t.getD [])) := by
  simp only [dnsEq, bind, Except.bind] at h
  split at h
  · cases h
  · next x ha =>
    split at h
    · cases h
    · next y hb => cases h; exact ⟨x.1, y.1, ha, hb, rfl⟩

theorem dnsEq_of {L : Lib} {a b a' b' : Obj Str} {s t : Option Str} (ha : GenName.read (dns L) a = .ok (s, a'))
    (hb : GenName.read (dns L) b = .ok (t, b')) : dnsEq L a b = .ok (decide (lower L.toLib (s.getD []) = lower L.toLib (t.getD [])), a', b') := by
  simp only [dnsEq, ha, hb, bind, Except.bind]

theorem uriEq_ok {L : Lib} {a b a' b' : Obj Str} {r : Bool} (h : uriEq L a b = .ok (r, a', b')) :
    ∃ s t u v, GenName.read (uri L) a = .ok (some s, a') ∧ GenName.read (uri L) b = .ok (some t, b') ∧
      iriToUri L.toLib s true = .ok u ∧ iriToUri L.toLib t true = .ok v ∧ r = decide (u = v) := by
  simp only [uriEq, bind, Except.bind] at h
  split at h
  · cases h
  · next x ha =>
    obtain ⟨s, a1⟩ := x
    cases s with
    | none => cases h
    | some s =>
      cases hu : iriToUri L.toLib s true with
      | error e => simp only [hu] at h; cases h
      | ok u =>
        simp only [hu] at h
        split at h
        · cases h
        · next y hb =>
          obtain ⟨t, b1⟩ := y
          cases t with
          | none => cases h
          | some t =>
            cases hv : iriToUri L.toLib t true with
            | error e => simp only [hv] at h; cases h
            | ok v =>
              simp only [hv] at h
              cases h
              exact ⟨s, t, u, v, ha, hb, hu, hv, rfl⟩

theorem uriEq_of {L : Lib} {a b a' b' : Obj Str} {s t : Str} {u v : Bytes} (ha : GenName.read (uri L) a = .ok (some s, a'))
    (hb : GenName.read (uri L) b = .ok (some t, b')) (hu : iriToUri L.toLib s true = .ok u) (hv : iriToUri L.toLib t true = .ok v) :
    uriEq L a b = .ok (decide (u = v), a', b') := by
  simp only [uriEq, ha, hb, hu, hv, bind, Except.bind]

theorem ipEq_ok {a b a' b' : Obj Bytes} {r : Bool} (h : ipEq a b = .ok (r, a', b')) :
    ∃ s t, OctetString.native a = .ok (s, a') ∧ OctetString.native b = .ok (t, b') ∧ r = decide (s.getD [] = t.getD []) := by
  simp only [ipEq, bind, Except.bind] at h
  split at h
  · cases h
  · next x ha =>
    split at h
    · cases h
    · next y hb => cases h; exact ⟨x.1, y.1, ha, hb, rfl⟩

theorem ipEq_of {a b a' b' : Obj Bytes} {s t : Option Bytes} (ha : OctetString.native a = .ok (s, a')) (hb : OctetString.native b = .ok (t, b')) :
    ipEq a b = .ok (decide (s.getD [] = t.getD []), a', b') := by
  simp only [ipEq, ha, hb, bind, Except.bind]

theorem octet_native_again {o o' : Obj Bytes} {s : Option Bytes} (h : OctetString.native o = .ok (s, o')) : OctetString.native o' = .ok (s, o') := by
  simp only [OctetString.native] at h
  cases hc : o.contents with
  | none =>
    simp only [hc] at h
    cases h
    simp only [OctetString.native, hc]
  | some c =>
    simp only [hc] at h
    cases hn : o.native with
    | some t =>
      simp only [hn] at h
      cases h
      simp only [OctetString.native, hc, hn]
    | none =>
      simp only [hn, bind, Except.bind] at h
      split at h
      · cases h
      · cases h
        simp only [OctetString.native]

theorem normalize_inv {L : Lib} {o o' : Obj Str} (h : normalize L o = .ok o') :
    ∃ s c, (mail L).encode s = .ok c ∧ o'.contents = some c ∧ o'.native = some s := by
  simp only [normalize, bind, Except.bind] at h
  split at h
  · cases h
  · next x hx =>
    obtain ⟨s, o1⟩ := x
    cases s with
    | none => cases h
    | some s =>
      simp only [AbstractString.set, bind, Except.bind] at h
      split at h
      · cases h
      · next c hc =>
        cases h
        exact ⟨s, c, hc, rfl, rfl⟩

theorem normalize_again {L : Lib} {o o' : Obj Str} (h : normalize L o = .ok o') : ∃ o'', normalize L o' = .ok o'' ∧ o''.contents = o'.contents := by
  obtain ⟨s, c, he, hc, hn⟩ := normalize_inv h
  obtain ⟨o'', h1, h2, _⟩ := normalize_ok (hasText_put (k := mail L) hc hn) he
  exact ⟨o'', h1, h2.trans hc.symm⟩

/-- General names of the kinds that are supported are compared by kind and by what they say. -/
theorem C56_general (L : Lib) (hT : AsciiTables L.tables) (a b : Chosen) (v w : Meant) (ha : Says L a v) (hb : Says L b w) :
    ∃ r a' b', nameEq L a b = .ok (r, a', b') ∧ (r = true ↔ Meant.Same v w) := by
  have diff : ∀ {a b : Chosen}, a.name ∉ refused → b.name ∉ refused → a.name ≠ b.name → ¬ Meant.Same v w →
      ∃ r a' b', nameEq L a b = .ok (r, a', b') ∧ (r = true ↔ Meant.Same v w) :=
    fun h1 h2 h3 h4 => ⟨false, _, _, nameEq_other h1 h2 h3, ⟨fun h => (by cases h), fun h => absurd h h4⟩⟩
  cases ha <;> cases hb <;>
    try (refine diff ?_ ?_ ?_ (fun h => ?_) <;> first | (simp [Chosen.name, refused]; done) | (cases h; done))
  case mail.mail o s hs ms o' t ht mt =>
    obtain ⟨r, a', b', h1, h2, _⟩ := C56_mail L o o' s t ms mt hs ht
    refine ⟨r, .mail a', .mail b', ?_, h2.trans ⟨.mail, fun h => by cases h; assumption⟩⟩
    rw [nameEq_same (a := .mail o) (b := .mail o') (by simp [Chosen.name, refused]) rfl, chosenEq, h1]; rfl
  case dns.dns o s hs ms o' t ht mt =>
    obtain ⟨r, a', b', h1, h2, _⟩ := C56_dns L o o' s t ms mt hs ht
    refine ⟨r, .dns a', .dns b', ?_, h2.trans ⟨.dns, fun h => by cases h; assumption⟩⟩
    rw [nameEq_same (a := .dns o) (b := .dns o') (by simp [Chosen.name, refused]) rfl, chosenEq, h1]; rfl
  case directory.directory n dn pn m dm pm =>
    obtain ⟨h1, h2⟩ := Names.C35_text L.tables hT n m dn dm pn pm
    by_cases hs : SameName (wordsOf n) (wordsOf m)
    · refine ⟨true, .directory n, .directory m, ?_, fun _ => .directory hs, fun _ => rfl⟩
      rw [nameEq_same (a := .directory n) (b := .directory m) (by simp [Chosen.name, refused]) rfl, chosenEq, h1.mpr hs]; rfl
    · refine ⟨false, .directory n, .directory m, ?_, fun h => (by cases h), fun h => ?_⟩
      · rw [nameEq_same (a := .directory n) (b := .directory m) (by simp [Chosen.name, refused]) rfl, chosenEq, h2.mpr hs]; rfl
      · cases h; contradiction
  case uri.uri o s u hs hu o' t w ht hw =>
    obtain ⟨a', hs⟩ := hs
    obtain ⟨b', ht⟩ := ht
    refine ⟨decide (u = w), .uri a', .uri b', ?_, ?_⟩
    · rw [nameEq_same (a := .uri o) (b := .uri o') (by simp [Chosen.name, refused]) rfl, chosenEq, uriEq_of hs ht hu hw]; rfl
    · rw [decide_eq_true_eq]
      exact ⟨fun h => h ▸ .uri u, fun h => by cases h; rfl⟩
  case ip.ip o o1 s hs o' o2 t ht =>
    refine ⟨decide (s = t), .ip o1, .ip o2, ?_, ?_⟩
    · rw [nameEq_same (a := .ip o) (b := .ip o') (by simp [Chosen.name, refused]) rfl, chosenEq, ipEq_of hs ht]; rfl
    · rw [decide_eq_true_eq]
      exact ⟨fun h => h ▸ .ip s, fun h => by cases h; rfl⟩
  case registered.registered c d =>
    refine ⟨decide (some c = some d), .registered (some c), .registered (some d), ?_, ?_⟩
    · rw [nameEq_same (a := .registered (some c)) (b := .registered (some d)) (by simp [Chosen.name, refused]) rfl, chosenEq]
    · rw [decide_eq_true_eq, Option.some.injEq]
      exact ⟨fun h => h ▸ .registered c, fun h => by cases h; rfl⟩

/-- The other kinds are refused. -/
theorem C56_refused (L : Lib) (a b : Chosen) (h : ∃ x, (x = a ∨ x = b) ∧ (x = .other ∨ x = .x400 ∨ x = .ediParty)) :
    nameEq L a b = .error .valueError := by
  obtain ⟨x, hx, hr⟩ := h
  have hn : x.name ∈ refused := by rcases hr with rfl | rfl | rfl <;> decide
  unfold nameEq
  rcases hx with rfl | rfl
  · rw [if_pos hn]
  · split
    · rfl
    · rfl

theorem chosenEq_symm {L : Lib} {a b a' b' : Chosen} {r : Bool} (hn : a.name = b.name) (h : chosenEq L a b = .ok (r, a', b')) :
    chosenEq L b a = .ok (r, b', a') := by
  cases a <;> cases b <;> try (simp [Chosen.name] at hn; done)
  case mail.mail x y =>
    simp only [chosenEq] at h ⊢
    cases he : mailEq L x y with
    | error e => rw [he] at h; cases h
    | ok q =>
      obtain ⟨r1, x1, y1⟩ := q
      rw [he] at h
      cases h
      obtain ⟨h1, h2, rfl⟩ := mailEq_ok he
      rw [mailEq_of h2 h1, mailCompare_symm]; rfl
  case dns.dns x y =>
    simp only [chosenEq] at h ⊢
    cases he : dnsEq L x y with
    | error e => rw [he] at h; cases h
    | ok q =>
      obtain ⟨r1, x1, y1⟩ := q
      rw [he] at h
      cases h
      obtain ⟨s, t, h1, h2, rfl⟩ := dnsEq_ok he
      rw [dnsEq_of h2 h1]
      simp only [Except.map, eq_comm]
  case directory.directory x y =>
    simp only [chosenEq] at h ⊢
    cases he : Names.nameEq L.tables x y with
    | error e => rw [he] at h; cases h
    | ok q =>
      rw [he] at h
      cases h
      rw [Names.C35_symm L.tables x y _ he]; rfl
  case uri.uri x y =>
    simp only [chosenEq] at h ⊢
    cases he : uriEq L x y with
    | error e => rw [he] at h; cases h
    | ok q =>
      obtain ⟨r1, x1, y1⟩ := q
      rw [he] at h
      cases h
      obtain ⟨s, t, u, v, h1, h2, h3, h4, rfl⟩ := uriEq_ok he
      rw [uriEq_of h2 h1 h4 h3]
      simp only [Except.map, eq_comm]
  case ip.ip x y =>
    simp only [chosenEq] at h ⊢
    cases he : ipEq x y with
    | error e => rw [he] at h; cases h
    | ok q =>
      obtain ⟨r1, x1, y1⟩ := q
      rw [he] at h
      cases h
      obtain ⟨s, t, h1, h2, rfl⟩ := ipEq_ok he
      rw [ipEq_of h2 h1]
      simp only [Except.map, eq_comm]
  case registered.registered x y =>
    simp only [chosenEq] at h ⊢
    cases h
    simp only [eq_comm]
  all_goals
    simp only [chosenEq] at h ⊢
    cases h
    rfl

/-- Comparison is symmetric. -/
theorem C56_symm (L : Lib) (a b a' b' : Chosen) (r : Bool) (h : nameEq L a b = .ok (r, a', b')) : nameEq L b a = .ok (r, b', a') := by
  obtain ⟨h1, h2, ⟨h3, rfl, rfl, rfl⟩ | ⟨h3, h4⟩⟩ := nameEq_ok h
  · exact nameEq_other h2 h1 (Ne.symm h3)
  · rw [nameEq_same h2 h3.symm]
    exact chosenEq_symm h3 h4

theorem chosenEq_trans {L : Lib} {a b c a1 b1 b2 c2 : Chosen} (hn : a.name = b.name) (hm : b.name = c.name)
    (h : chosenEq L a b = .ok (true, a1, b1)) (h' : chosenEq L b c = .ok (true, b2, c2)) : ∃ a3 c3, chosenEq L a c = .ok (true, a3, c3) := by
  cases a <;> cases b <;> try (simp [Chosen.name] at hn; done)
  all_goals cases c <;> try (simp [Chosen.name] at hm; done)
  case mail.mail.mail x y z =>
    simp only [chosenEq] at h h' ⊢
    cases he : mailEq L x y with
    | error e => rw [he] at h; cases h
    | ok q =>
      obtain ⟨r1, x1, y1⟩ := q
      rw [he] at h
      cases hf : mailEq L y z with
      | error e => rw [hf] at h'; cases h'
      | ok q =>
        obtain ⟨r2, y2, z2⟩ := q
        rw [hf] at h'
        obtain ⟨h1, h2, h3⟩ := mailEq_ok he
        obtain ⟨g1, g2, g3⟩ := mailEq_ok hf
        rw [h2] at g1
        cases g1
        cases h; cases h'
        refine ⟨.mail x1, .mail z2, ?_⟩
        have := (mailCompare_iff _ _).mpr (sameMailOctets_trans ((mailCompare_iff _ _).mp h3.symm) ((mailCompare_iff _ _).mp g3.symm))
        rw [mailEq_of h1 g2, this]; rfl
  case dns.dns.dns x y z =>
    simp only [chosenEq] at h h' ⊢
    cases he : dnsEq L x y with
    | error e => rw [he] at h; cases h
    | ok q =>
      obtain ⟨r1, x1, y1⟩ := q
      rw [he] at h
      cases hf : dnsEq L y z with
      | error e => rw [hf] at h'; cases h'
      | ok q =>
        obtain ⟨r2, y2, z2⟩ := q
        rw [hf] at h'
        obtain ⟨s, t, h1, h2, h3⟩ := dnsEq_ok he
        obtain ⟨t', u, g1, g2, g3⟩ := dnsEq_ok hf
        rw [h2] at g1
        cases g1
        cases h; cases h'
        refine ⟨.dns x1, .dns z2, ?_⟩
        have := (decide_eq_true_iff.mp h3.symm).trans (decide_eq_true_iff.mp g3.symm)
        rw [dnsEq_of h1 g2, decide_eq_true this]; rfl
  case directory.directory.directory x y z =>
    simp only [chosenEq] at h h' ⊢
    cases he : Names.nameEq L.tables x y with
    | error e => rw [he] at h; cases h
    | ok q =>
      rw [he] at h
      cases hf : Names.nameEq L.tables y z with
      | error e => rw [hf] at h'; cases h'
      | ok q' =>
        rw [hf] at h'
        cases h; cases h'
        exact ⟨.directory x, .directory z, by rw [Names.C35_trans L.tables x y z he hf]; rfl⟩
  case uri.uri.uri x y z =>
    simp only [chosenEq] at h h' ⊢
    cases he : uriEq L x y with
    | error e => rw [he] at h; cases h
    | ok q =>
      obtain ⟨r1, x1, y1⟩ := q
      rw [he] at h
      cases hf : uriEq L y z with
      | error e => rw [hf] at h'; cases h'
      | ok q =>
        obtain ⟨r2, y2, z2⟩ := q
        rw [hf] at h'
        obtain ⟨s, t, u, v, h1, h2, h3, h4, h5⟩ := uriEq_ok he
        obtain ⟨t', w, v', k, g1, g2, g3, g4, g5⟩ := uriEq_ok hf
        rw [h2] at g1
        cases g1
        rw [h4] at g3
        cases g3
        cases h; cases h'
        refine ⟨.uri x1, .uri z2, ?_⟩
        have := (decide_eq_true_iff.mp h5.symm).trans (decide_eq_true_iff.mp g5.symm)
        rw [uriEq_of h1 g2 h3 g4, decide_eq_true this]; rfl
  case ip.ip.ip x y z =>
    simp only [chosenEq] at h h' ⊢
    cases he : ipEq x y with
    | error e => rw [he] at h; cases h
    | ok q =>
      obtain ⟨r1, x1, y1⟩ := q
      rw [he] at h
      cases hf : ipEq y z with
      | error e => rw [hf] at h'; cases h'
      | ok q =>
        obtain ⟨r2, y2, z2⟩ := q
        rw [hf] at h'
        obtain ⟨s, t, h1, h2, h3⟩ := ipEq_ok he
        obtain ⟨t', u, g1, g2, g3⟩ := ipEq_ok hf
        rw [h2] at g1
        cases g1
        cases h; cases h'
        refine ⟨.ip x1, .ip z2, ?_⟩
        have := (decide_eq_true_iff.mp h3.symm).trans (decide_eq_true_iff.mp g3.symm)
        rw [ipEq_of h1 g2, decide_eq_true this]; rfl
  case registered.registered.registered x y z =>
    simp only [chosenEq, Except.ok.injEq, Prod.mk.injEq, decide_eq_true_eq] at h h' ⊢
    exact ⟨_, _, h.1.trans h'.1, rfl, rfl⟩
  all_goals
    simp only [chosenEq] at h
    cases h

/-- Comparison is transitive. -/
theorem C56_trans (L : Lib) (a b c a1 b1 b2 c2 : Chosen) (h : nameEq L a b = .ok (true, a1, b1)) (h' : nameEq L b c = .ok (true, b2, c2)) :
    ∃ a3 c3, nameEq L a c = .ok (true, a3, c3) := by
  obtain ⟨h1, h2, ⟨_, h3, _⟩ | ⟨h3, h4⟩⟩ := nameEq_ok h
  · cases h3
  obtain ⟨g1, g2, ⟨_, g3, _⟩ | ⟨g3, g4⟩⟩ := nameEq_ok h'
  · cases g3
  obtain ⟨a3, c3, hr⟩ := chosenEq_trans h3 g3 h4 g4
  exact ⟨a3, c3, by rw [nameEq_same h1 (h3.trans g3), hr]⟩

theorem chosenEq_again {L : Lib} {a b a' b' : Chosen} {r : Bool} (hn : a.name = b.name) (h : chosenEq L a b = .ok (r, a', b')) :
    a'.name = a.name ∧ b'.name = b.name ∧ ∃ a'' b'', chosenEq L a' b' = .ok (r, a'', b'') := by
  cases a <;> cases b <;> try (simp [Chosen.name] at hn; done)
  case mail.mail x y =>
    simp only [chosenEq] at h
    cases he : mailEq L x y with
    | error e => rw [he] at h; cases h
    | ok q =>
      obtain ⟨r1, x1, y1⟩ := q
      rw [he] at h
      cases h
      obtain ⟨h1, h2, rfl⟩ := mailEq_ok he
      obtain ⟨x2, g1, e1⟩ := normalize_again h1
      obtain ⟨y2, g2, e2⟩ := normalize_again h2
      exact ⟨rfl, rfl, .mail x2, .mail y2, by rw [chosenEq, mailEq_of g1 g2, e1, e2]; rfl⟩
  case dns.dns x y =>
    simp only [chosenEq] at h
    cases he : dnsEq L x y with
    | error e => rw [he] at h; cases h
    | ok q =>
      obtain ⟨r1, x1, y1⟩ := q
      rw [he] at h
      cases h
      obtain ⟨s, t, h1, h2, rfl⟩ := dnsEq_ok he
      exact ⟨rfl, rfl, .dns x1, .dns y1, by rw [chosenEq, dnsEq_of (read_read h1) (read_read h2)]; rfl⟩
  case directory.directory x y =>
    simp only [chosenEq] at h
    cases he : Names.nameEq L.tables x y with
    | error e => rw [he] at h; cases h
    | ok q =>
      rw [he] at h
      cases h
      exact ⟨rfl, rfl, .directory x, .directory y, by rw [chosenEq, he]; rfl⟩
  case uri.uri x y =>
    simp only [chosenEq] at h
    cases he : uriEq L x y with
    | error e => rw [he] at h; cases h
    | ok q =>
      obtain ⟨r1, x1, y1⟩ := q
      rw [he] at h
      cases h
      obtain ⟨s, t, u, v, h1, h2, h3, h4, rfl⟩ := uriEq_ok he
      exact ⟨rfl, rfl, .uri x1, .uri y1, by rw [chosenEq, uriEq_of (read_read h1) (read_read h2) h3 h4]; rfl⟩
  case ip.ip x y =>
    simp only [chosenEq] at h
    cases he : ipEq x y with
    | error e => rw [he] at h; cases h
    | ok q =>
      obtain ⟨r1, x1, y1⟩ := q
      rw [he] at h
      cases h
      obtain ⟨s, t, h1, h2, rfl⟩ := ipEq_ok he
      exact ⟨rfl, rfl, .ip x1, .ip y1, by rw [chosenEq, ipEq_of (octet_native_again h1) (octet_native_again h2)]; rfl⟩
  all_goals
    simp only [chosenEq] at h
    cases h
    exact ⟨rfl, rfl, _, _, rfl⟩

/-- Comparing again gives the same result. -/
theorem C56_again (L : Lib) (a b a' b' : Chosen) (r : Bool) (h : nameEq L a b = .ok (r, a', b')) :
    ∃ a'' b'', nameEq L a' b' = .ok (r, a'', b'') := by
  obtain ⟨h1, h2, ⟨h3, rfl, rfl, rfl⟩ | ⟨h3, h4⟩⟩ := nameEq_ok h
  · exact ⟨_, _, h⟩
  · obtain ⟨e1, e2, a'', b'', hr⟩ := chosenEq_again h3 h4
    exact ⟨a'', b'', by rw [nameEq_same (e1 ▸ h1) (e1.trans (h3.trans e2.symm)), hr]⟩

/-! ### Findings -/

/-- A library for the examples. -/
def plainLib : Lib where
  toAscii _ := .error .unicodeError
  toUnicode _ := .error .unicodeError
  lower s := s.map Char.toLower
  nfkc := id
  bracketed _ := true
  tables := Names.asciiTables

/-- Loads an IA5String. -/
def loadName (b : Bytes) : Py (Obj Str) := AbstractString.load GenName.new b

/-- Loads an address, dumps it, compares it with itself, and dumps it again. -/
def dumpCompareDump (L : Lib) (b : Bytes) : Py (Bytes × Bool × Bytes) := do
  let a ← loadName b
  let (before, _) ← asn1Dump true a
  let (r, a, _) ← mailEq L a a
  let (after, _) ← asn1Dump true a
  .ok (before, r, after)

/-- Comparing changes what `dump()` writes for an address that was not in DER: the length of 3 took two bytes. -/
theorem C56_mail_rewrites (L : Lib) :
    dumpCompareDump L [0x16, 0x81, 3, 0x61, 0x40, 0x62] = .ok ([0x16, 0x81, 3, 0x61, 0x40, 0x62], true, [0x16, 3, 0x61, 0x40, 0x62]) := by
  kernel_rfl

/-- Loads an address, reads it, and compares it with itself. -/
def readCompare (L : Lib) (b : Bytes) : Py (Option Str × Py Bool) := do
  let a ← loadName b
  let (s, a) ← GenName.read (mail L) a
  .ok (s, (mailEq L a a).map (·.1))

/-- An address with a character that is not ASCII before the `@` can be loaded and read, but not compared, not even with itself. -/
theorem C56_mail_latin_fails (L : Lib) : readCompare L [0x16, 3, 0xe9, 0x40, 0x62] = .ok (some ['é', '@', 'b'], .error .unicodeError) := by
  kernel_rfl

/-- Nor can an address with an empty label. -/
theorem C56_mail_label_fails (L : Lib) :
    readCompare L [0x16, 6, 0x61, 0x40, 0x62, 0x2e, 0x2e, 0x63] = .ok (some ['a', '@', 'b', '.', '.', 'c'], .error .unicodeError) := by
  kernel_rfl

/-- Builds a DNS name, writes it, loads it, and compares both. -/
def writeCompare (L : Lib) (s : Str) : Py Bool := do
  let o ← AbstractString.set (dns L) GenName.new s
  let (b, _) ← asn1Dump true o
  let w ← loadName b
  let (r, _) ← dnsEq L o w
  .ok r

def strasse : Str := ['s', 't', 'r', 'a', 'ß', 'e', '.', 'd', 'e']
def folded : Str := ['s', 't', 'r', 'a', 's', 's', 'e', '.', 'd', 'e']

/-- A host name with a character that IDNA replaces by others is not equal to itself after writing and reading. With the IDNA codec of Python
`straße.de` becomes `strasse.de`. -/
theorem C56_dns_folded_fails (L : Lib) (h : L.toAscii strasse = .ok (octets folded)) (h1 : L.lower strasse = strasse) :
    writeCompare L strasse = .ok false := by
  have he : (dns L).encode strasse = .ok (octets folded) := h
  have hs : AbstractString.set (dns L) GenName.new strasse = .ok (strPut GenName.new strasse (octets folded)) := by
    simp only [AbstractString.set, he, bind, Except.bind, pure, Except.pure]
  have hr : writeCompare L strasse = .ok (decide (L.lower strasse = folded)) := by
    unfold writeCompare
    rw [hs]
    kernel_rfl
  rw [hr, h1]
  decide

/-! ### The statements apply -/

theorem host_example : Host "Example.com".toList := ⟨by decide +kernel, by decide +kernel, by decide +kernel, by decide +kernel⟩

theorem mail_example : MailText "John@Example.com".toList :=
  .inl ⟨"John".toList, "Example.com".toList, by decide +kernel, by decide +kernel, by decide +kernel, host_example⟩

theorem dns_example : DnsText ".Example.com".toList := .inr ⟨"Example.com".toList, by decide +kernel, host_example⟩

theorem new_blank : Blank GenName.new := ⟨rfl, by decide, rfl, by intro e he; cases he⟩

/-- Builds two addresses and compares them. -/
def buildCompare (s t : Str) : Py Bool := do
  let a ← AbstractString.set (mail plainLib) GenName.new s
  let b ← AbstractString.set (mail plainLib) GenName.new t
  let (r, _) ← mailEq plainLib a b
  .ok r

/-- Upper case after the `@` does not matter; before it, it does. -/
example : buildCompare "John@Example.com".toList "John@example.COM".toList = .ok true ∧
    buildCompare "John@Example.com".toList "john@Example.com".toList = .ok false := by
  decide +kernel

/-- `C56_general` applies to what was built. -/
example (o : Obj Str) (h : AbstractString.set (mail plainLib) GenName.new "John@Example.com".toList = .ok o) :
    Says plainLib (.mail o) (.mail "John@Example.com".toList) := by
  obtain ⟨_, _, o', h', ht, _⟩ := C56_mail_round_trip plainLib _ mail_example _ new_blank
  rw [h] at h'
  cases h'
  exact .mail ht mail_example

end Asn1.Props
