import Verif.Model.GenName
import Verif.Spec.GenName
import Verif.Lemmas.Obj
import Verif.Lemmas.Iri

/-!
# Lemmas for C56
-/

namespace Asn1.GenName
open Asn1 Url Spec

/-! ### `rsplit` -/

theorem rsplit_none {α : Type} [DecidableEq α] {x : α} : ∀ {l : List α}, rsplit x l = none ↔ x ∉ l
  | [] => by simp [rsplit]
  | a :: l => by
    have ih := rsplit_none (x := x) (l := l)
    rw [rsplit]
    cases h : rsplit x l with
    | some q =>
      have hx : x ∈ l := by
        by_contra hn
        rw [ih.mpr hn] at h
        cases h
      simp [hx]
    | none =>
      have hx := ih.mp h
      by_cases ha : a = x
      · simp [ha]
      · simp [ha, hx, Ne.symm ha]

theorem rsplit_some {α : Type} [DecidableEq α] {x : α} : ∀ {l m h : List α}, rsplit x l = some (m, h) ↔ l = m ++ x :: h ∧ x ∉ h
  | [], m, h => by simp [rsplit]
  | a :: l, m, h => by
    rw [rsplit]
    cases hr : rsplit x l with
    | some q =>
      obtain ⟨m', h'⟩ := q
      have ih := (rsplit_some (x := x)).mp hr
      constructor
      · intro he
        cases he
        exact ⟨by rw [ih.1]; rfl, ih.2⟩
      · rintro ⟨he, hx⟩
        cases m with
        | nil =>
          simp only [List.nil_append, List.cons.injEq] at he
          exact absurd (he.2 ▸ ih.1 ▸ List.mem_append_right m' List.mem_cons_self) hx
        | cons b m =>
          simp only [List.cons_append, List.cons.injEq] at he
          have := (rsplit_some (x := x)).mpr ⟨he.2, hx⟩
          rw [hr] at this
          cases this
          rw [he.1]
    | none =>
      have hn := rsplit_none.mp hr
      by_cases ha : a = x
      · rw [if_pos ha]
        constructor
        · intro he
          cases he
          exact ⟨by rw [ha]; rfl, hn⟩
        · rintro ⟨he, hx⟩
          cases m with
          | nil => simp only [List.nil_append, List.cons.injEq] at he; rw [he.2]
          | cons b m =>
            simp only [List.cons_append, List.cons.injEq] at he
            exact absurd (he.2 ▸ List.mem_append_right m List.mem_cons_self) hn
      · rw [if_neg ha]
        constructor
        · intro he; cases he
        · rintro ⟨he, hx⟩
          cases m with
          | nil => simp only [List.nil_append, List.cons.injEq] at he; exact absurd he.1 ha
          | cons b m =>
            simp only [List.cons_append, List.cons.injEq] at he
            exact absurd (he.2 ▸ List.mem_append_right m List.mem_cons_self) hn

/-! ### ASCII -/

theorem octet_char {c : Char} (h : c.toNat < 128) : Char.ofNat (UInt8.ofNat c.toNat).toNat = c := by
  rw [UInt8.toNat_ofNat_of_lt' (by show c.toNat < 256; omega), Char.ofNat_toNat]

theorem char_octet {x : UInt8} (h : x.toNat < 128) : (Char.ofNat x.toNat).toNat = x.toNat := by
  exact Iri.toNat_char (.inl (by omega))

theorem octet_inj {c d : Char} (hc : c.toNat < 128) (hd : d.toNat < 128) (h : UInt8.ofNat c.toNat = UInt8.ofNat d.toNat) : c = d := by
  rw [← octet_char hc, ← octet_char hd, h]

theorem text_octets {s : Str} (h : ∀ c ∈ s, c.toNat < 128) : text (octets s) = s := by
  simp only [text, octets, List.map_map]
  induction s with
  | nil => rfl
  | cons a l ih =>
    simp only [List.map_cons, Function.comp, List.cons.injEq]
    exact ⟨octet_char (h a (by simp)), ih (fun c hc => h c (by simp [hc]))⟩

theorem isAscii_iff {s : Str} : isAscii s = true ↔ ∀ c ∈ s, c.toNat < 128 := by
  simp [isAscii, List.all_eq_true]

theorem octets_ascii {s : Str} (h : ∀ c ∈ s, c.toNat < 128) : ∀ x ∈ octets s, x.toNat < 128 := by
  intro x hx
  obtain ⟨c, hc, rfl⟩ := List.mem_map.mp hx
  have := h c hc
  rw [UInt8.toNat_ofNat_of_lt' (by show c.toNat < 256; omega)]
  exact this

theorem octets_text {b : Bytes} (h : ∀ x ∈ b, x.toNat < 128) : octets (text b) = b := by
  simp only [text, octets, List.map_map]
  induction b with
  | nil => rfl
  | cons a l ih =>
    simp only [List.map_cons, Function.comp, List.cons.injEq]
    refine ⟨?_, ih (fun c hc => h c (by simp [hc]))⟩
    rw [char_octet (h a (by simp))]
    exact UInt8.ofNat_toNat

theorem octets_append (s t : Str) : octets (s ++ t) = octets s ++ octets t := List.map_append

theorem mem_octets {s : Str} {c : Char} (hs : ∀ d ∈ s, d.toNat < 128) (hc : c.toNat < 128) : UInt8.ofNat c.toNat ∈ octets s ↔ c ∈ s := by
  constructor
  · intro h
    obtain ⟨d, hd, h⟩ := List.mem_map.mp h
    rwa [octet_inj hc (hs d hd) h.symm]
  · intro h
    exact List.mem_map.mpr ⟨c, h, rfl⟩

theorem hasPrefix_iff : ∀ {b : Bytes}, hasPrefix b = true ↔ [0x78, 0x6e, 0x2d, 0x2d] <:+: b
  | [] => by simp [hasPrefix]
  | a :: r => by
    rw [hasPrefix, Bool.or_eq_true, hasPrefix_iff (b := r), List.isPrefixOf_iff_prefix, List.infix_cons_iff]

theorem octets_prefix {s : Str} (hs : ∀ c ∈ s, c.toNat < 128) (h : ¬ "xn--".toList <:+: s) : hasPrefix (octets s) = false := by
  cases hp : hasPrefix (octets s) with
  | false => rfl
  | true =>
    refine absurd ?_ h
    have := (hasPrefix_iff.mp hp).map (fun x : UInt8 => Char.ofNat x.toNat)
    have e : (octets s).map (fun x : UInt8 => Char.ofNat x.toNat) = s := text_octets hs
    rw [e] at this
    exact this

theorem decode_plain (L : Url.Lib) {s : Str} (hs : ∀ c ∈ s, c.toNat < 128) (h : ¬ "xn--".toList <:+: s) : idnaDecode L (octets s) = .ok s := by
  rw [idnaDecode, octets_prefix hs h, if_pos, text_octets hs]
  simpa [List.all_eq_true] using octets_ascii hs

theorem encode_host (L : Url.Lib) {s : Str} (h : Host s) : idnaEncode L s = .ok (octets s) := by
  unfold idnaEncode
  by_cases he : s = []
  · rw [if_pos he, he]; rfl
  rw [if_neg he, if_pos (isAscii_iff.mpr h.ascii)]
  simp only
  rw [if_pos]
  rw [Bool.and_eq_true]
  constructor
  · rw [List.all_eq_true]
    intro l hl
    simpa using h.labels l hl
  · rw [List.getLastD_eq_getLast?]
    cases hl : (pySplit '.' s).getLast? with
    | none => rfl
    | some l => simpa using h.last l hl

theorem cp1252_ascii : ∀ {s : Str}, (∀ c ∈ s, c.toNat < 128) → Names.cp1252 (octets s) = .ok s
  | [], _ => rfl
  | a :: l, h => by
    have ih := cp1252_ascii (s := l) (fun c hc => h c (by simp [hc]))
    have ha := h a (by simp)
    have hb : Names.cp1252Byte (UInt8.ofNat a.toNat) = .ok a := by
      unfold Names.cp1252Byte
      rw [if_neg, octet_char ha]
      rw [UInt8.toNat_ofNat_of_lt' (by show a.toNat < 256; omega)]
      omega
    unfold Names.cp1252 at ih ⊢
    simp only [octets, List.map_cons, List.mapM_cons, hb, bind, Except.bind] at ih ⊢
    rw [ih]
    rfl

theorem mail_encode (L : Lib) {s : Str} (h : MailText s) : (mail L).encode s = .ok (octets s) := by
  unfold mail
  simp only
  rcases h with ⟨m, h, rfl, hat, hm, hh⟩ | ⟨hat, hs⟩
  · rw [rsplit_some.mpr ⟨rfl, hat⟩]
    simp only [asciiEncode, isAscii_iff.mpr hm, if_true, encode_host L.toLib hh, bind, Except.bind, octets_append]
    rfl
  · rw [rsplit_none.mpr hat]
    simp only [asciiEncode, isAscii_iff.mpr hs, if_true]

theorem mail_decode (L : Lib) {s : Str} (h : MailText s) : (mail L).decode (octets s) = .ok s := by
  unfold mail
  simp only
  rcases h with ⟨m, h, rfl, hat, hm, hh⟩ | ⟨hat, hs⟩
  · have hx : (0x40 : UInt8) ∉ octets h := fun hx => hat ((mem_octets hh.ascii (c := '@') (by decide)).mp hx)
    rw [show octets (m ++ '@' :: h) = octets m ++ 0x40 :: octets h from octets_append _ _, rsplit_some.mpr ⟨rfl, hx⟩]
    simp only [cp1252_ascii hm, decode_plain L.toLib hh.ascii hh.plain, bind, Except.bind]
  · have hx : (0x40 : UInt8) ∉ octets s := fun hx => hat ((mem_octets hs (c := '@') (by decide)).mp hx)
    rw [rsplit_none.mpr hx]
    exact cp1252_ascii hs

theorem mail_ascii {s : Str} (h : MailText s) : ∀ c ∈ s, c.toNat < 128 := by
  rcases h with ⟨m, h, rfl, hat, hm, hh⟩ | ⟨hat, hs⟩
  · intro c hc
    rcases List.mem_append.mp hc with hc | hc
    · exact hm c hc
    · rcases List.mem_cons.mp hc with rfl | hc
      · decide
      · exact hh.ascii c hc
  · exact hs

theorem dns_encode (L : Lib) {s : Str} (h : DnsText s) : (dns L).encode s = .ok (octets s) := by
  unfold dns
  simp only
  rcases h with ⟨hh, hd⟩ | ⟨t, rfl, hh⟩
  · split
    · simp at hd
    · exact encode_host L.toLib hh
  · show Except.map _ (idnaEncode L.toLib t) = _
    rw [encode_host L.toLib hh]; rfl

theorem dns_ascii {s : Str} (h : DnsText s) : ∀ c ∈ s, c.toNat < 128 := by
  rcases h with ⟨hh, hd⟩ | ⟨t, rfl, hh⟩
  · exact hh.ascii
  · intro c hc
    rcases List.mem_cons.mp hc with rfl | hc
    · decide
    · exact hh.ascii c hc

theorem dns_decode (L : Lib) {s : Str} (h : DnsText s) : (dns L).decode (octets s) = .ok s := by
  unfold dns
  simp only
  refine decode_plain L.toLib (dns_ascii h) ?_
  rcases h with ⟨hh, hd⟩ | ⟨t, rfl, hh⟩
  · exact hh.plain
  · intro hx
    rcases List.infix_cons_iff.mp hx with hp | hx
    · simp at hp
    · exact hh.plain hx

/-! ### Comparison -/

theorem lowerByte_eq (x : UInt8) : (if 65 ≤ x.toNat ∧ x.toNat ≤ 90 then x + 32 else x) = (if 0x41 ≤ x ∧ x ≤ 0x5a then x + 0x20 else x) := by
  simp only [UInt8.le_iff_toNat_le]
  rfl

theorem mailCompare_iff (c d : Bytes) : mailCompare c d = true ↔ SameMailOctets c d := by
  have hl : ∀ h : Bytes, lowerBytes h = h.map (fun x => if 0x41 ≤ x ∧ x ≤ 0x5a then x + 0x20 else x) := by
    intro h
    exact List.map_congr_left (fun x _ => lowerByte_eq x)
  unfold mailCompare SameMailOctets
  cases h1 : rsplit 0x40 c with
  | none =>
    have hc := rsplit_none.mp h1
    simp only [decide_eq_true_eq]
    constructor
    · intro h; exact .inl h
    · rintro (h | ⟨m, h, h', rfl, _⟩)
      · exact h
      · simp at hc
  | some q =>
    obtain ⟨m, h⟩ := q
    obtain ⟨rfl, hh⟩ := rsplit_some.mp h1
    cases h2 : rsplit 0x40 d with
    | none =>
      have hd := rsplit_none.mp h2
      simp only [decide_eq_true_eq]
      constructor
      · intro h; exact .inl h
      · rintro (h | ⟨m, h, h', _, rfl, _⟩)
        · exact h
        · simp at hd
    | some q' =>
      obtain ⟨m', h'⟩ := q'
      obtain ⟨rfl, hh'⟩ := rsplit_some.mp h2
      simp only [Bool.and_eq_true, decide_eq_true_eq, hl]
      constructor
      · rintro ⟨rfl, h⟩; exact .inr ⟨m, _, _, rfl, rfl, hh, hh', h⟩
      · rintro (he | ⟨n, g, g', he, he', hg, hg', hs⟩)
        · rw [he] at h1
          rw [h1] at h2
          cases h2
          exact ⟨rfl, rfl⟩
        · have e1 := rsplit_some.mpr ⟨he, hg⟩
          have e2 := rsplit_some.mpr ⟨he', hg'⟩
          rw [h1] at e1
          rw [h2] at e2
          cases e1; cases e2
          exact ⟨rfl, hs⟩

theorem lower_octet {c : Char} (h : c.toNat < 128) :
    (if (0x41 : UInt8) ≤ UInt8.ofNat c.toNat ∧ UInt8.ofNat c.toNat ≤ 0x5a then UInt8.ofNat c.toNat + 0x20 else UInt8.ofNat c.toNat) = UInt8.ofNat c.toLower.toNat := by
  have key : ∀ n : Nat, n < 128 → (if (0x41 : UInt8) ≤ UInt8.ofNat n ∧ UInt8.ofNat n ≤ 0x5a then UInt8.ofNat n + 0x20 else UInt8.ofNat n) =
      UInt8.ofNat (Char.ofNat n).toLower.toNat := by decide
  have := key c.toNat h
  rwa [Char.ofNat_toNat] at this

theorem toLower_ascii {c : Char} (h : c.toNat < 128) : c.toLower.toNat < 128 := by
  have key : ∀ n : Nat, n < 128 → (Char.ofNat n).toLower.toNat < 128 := by decide
  have := key c.toNat h
  rwa [Char.ofNat_toNat] at this

theorem sameLetters_iff : ∀ {s t : Str}, (∀ c ∈ s, c.toNat < 128) → (∀ c ∈ t, c.toNat < 128) →
    ((octets s).map (fun x : UInt8 => if 0x41 ≤ x ∧ x ≤ 0x5a then x + 0x20 else x) =
      (octets t).map (fun x : UInt8 => if 0x41 ≤ x ∧ x ≤ 0x5a then x + 0x20 else x) ↔ SameLetters s t) := by
  intro s t hs ht
  have e : ∀ {s : Str}, (∀ c ∈ s, c.toNat < 128) → (octets s).map (fun x : UInt8 => if 0x41 ≤ x ∧ x ≤ 0x5a then x + 0x20 else x) = octets (s.map Char.toLower) := by
    intro s hs
    simp only [octets, List.map_map]
    exact List.map_congr_left (fun c hc => lower_octet (hs c hc))
  have l : ∀ {s : Str}, (∀ c ∈ s, c.toNat < 128) → ∀ c ∈ s.map Char.toLower, c.toNat < 128 := by
    intro s hs c hc
    obtain ⟨d, hd, rfl⟩ := List.mem_map.mp hc
    exact toLower_ascii (hs d hd)
  rw [e hs, e ht]
  unfold SameLetters
  constructor
  · intro h
    rw [← text_octets (l hs), ← text_octets (l ht), h]
  · intro h; rw [h]

theorem sameMail_octets {s t : Str} (hs : ∀ c ∈ s, c.toNat < 128) (ht : ∀ c ∈ t, c.toNat < 128) :
    SameMailOctets (octets s) (octets t) ↔ SameMail s t := by
  have inj : ∀ {s t : Str}, (∀ c ∈ s, c.toNat < 128) → (∀ c ∈ t, c.toNat < 128) → octets s = octets t → s = t := by
    intro s t hs ht h
    rw [← text_octets hs, ← text_octets ht, h]
  have at_ : (0x40 : UInt8) = UInt8.ofNat '@'.toNat := rfl
  constructor
  · rintro (h | ⟨m, h, h', e1, e2, n1, n2, hl⟩)
    · exact .inl (inj hs ht h)
    · have a1 := octets_ascii hs
      have a2 := octets_ascii ht
      rw [e1] at a1
      rw [e2] at a2
      have am : ∀ x ∈ m, x.toNat < 128 := fun x hx => a1 x (by simp [hx])
      have ah : ∀ x ∈ h, x.toNat < 128 := fun x hx => a1 x (by simp [hx])
      have ah' : ∀ x ∈ h', x.toNat < 128 := fun x hx => a2 x (by simp [hx])
      have t1 : s = text m ++ '@' :: text h := by rw [← text_octets hs, e1]; simp [text]
      have t2 : t = text m ++ '@' :: text h' := by rw [← text_octets ht, e2]; simp [text]
      have ta : ∀ {b : Bytes}, (∀ x ∈ b, x.toNat < 128) → ∀ c ∈ text b, c.toNat < 128 := by
        intro b hb c hc
        obtain ⟨x, hx, rfl⟩ := List.mem_map.mp hc
        rw [char_octet (hb x hx)]; exact hb x hx
      refine .inr ⟨text m, text h, text h', t1, t2, ?_, ?_, ?_⟩
      · intro hx
        rw [← octets_text ah] at n1
        exact n1 ((mem_octets (ta ah) (c := '@') (by decide)).mpr hx)
      · intro hx
        rw [← octets_text ah'] at n2
        exact n2 ((mem_octets (ta ah') (c := '@') (by decide)).mpr hx)
      · rw [← sameLetters_iff (ta ah) (ta ah'), octets_text ah, octets_text ah']
        exact hl
  · rintro (h | ⟨m, h, h', rfl, rfl, n1, n2, hl⟩)
    · exact .inl (by rw [h])
    · have ah : ∀ c ∈ h, c.toNat < 128 := fun c hc => hs c (by simp [hc])
      have ah' : ∀ c ∈ h', c.toNat < 128 := fun c hc => ht c (by simp [hc])
      refine .inr ⟨octets m, octets h, octets h', octets_append _ _, octets_append _ _, ?_, ?_, (sameLetters_iff ah ah').mpr hl⟩
      · exact fun hx => n1 ((mem_octets ah (c := '@') (by decide)).mp hx)
      · exact fun hx => n2 ((mem_octets ah' (c := '@') (by decide)).mp hx)

end Asn1.GenName
