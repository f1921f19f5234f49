import Verif.Lemmas.Host

/-!
# C32: which hosts a certificate is valid for

`ext` is the `idna` codec on non-ASCII text, `rx` is `re` on wildcard labels with metacharacters, `inet` the address
functions of the platform. All three are arbitrary.
-/

namespace Asn1.Host
open Asn1 Asn1.Spec

variable (ext : Str → Py Str) (rx : Str → Str → Py Bool) (inet : Inet)

/-- The DNS names of a certificate: those of the subject alternative names or, if there are none of any kind, the common names
that look like a host name. -/
def DnsName (c : Cert) (d : Str) : Prop :=
  if c.altNames.getD [] = [] then d ∈ c.commonNames ∧ HostLike d else .dns d ∈ c.altNames.getD []

theorem mem_collectDns (ns : List GeneralName) (acc : List Str) (d : Str) :
    d ∈ collectDns acc ns ↔ d ∈ acc ∨ .dns d ∈ ns := by
  induction ns generalizing acc with
  | nil => simp [collectDns]
  | cons n ns ih =>
    cases n with
    | dns s =>
      rw [collectDns]
      split
      · rename_i hs
        rw [ih]
        constructor
        · rintro (h | h)
          · exact Or.inl h
          · exact Or.inr (by simp [h])
        · rintro (h | h)
          · exact Or.inl h
          · rcases List.mem_cons.mp h with h | h
            · injection h with h; exact Or.inl (h ▸ hs)
            · exact Or.inr h
      · rw [ih]; simp; tauto
    | ip s => rw [collectDns, ih] <;> simp
    | other => rw [collectDns, ih] <;> simp

theorem mem_validDomains (c : Cert) (d : Str) : d ∈ validDomains c ↔ DnsName c d := by
  unfold validDomains DnsName
  cases c.altNames with
  | none => simp [cnPattern_iff]
  | some ns =>
    cases ns with
    | nil => simp [cnPattern_iff]
    | cons n ns => simp [mem_collectDns]

theorem mem_validIps (c : Cert) (d : Str) : d ∈ validIps c ↔ .ip d ∈ c.altNames.getD [] := by
  unfold validIps
  cases c.altNames with
  | none => simp
  | some ns =>
    simp only [List.mem_filterMap, Option.getD_some]
    constructor
    · rintro ⟨g, hg, h⟩
      cases g <;> simp at h
      exact h ▸ hg
    · exact fun h => ⟨_, h, rfl⟩

theorem isWildcardMatch_cons (l w : Str) (rest' rest : List Str) :
    isWildcardMatch rx (l :: rest') (w :: rest) =
      if rest' ≠ rest then .ok false else if w = ['*'] then .ok true else labelRegex rx w l := rfl

open Classical in
theorem domainLoop_cons {d e h : Str} {ds : List Str} (he : idna ext d = .ok e) (hm : NoMeta e) (hn : '\n' ∉ h) :
    domainLoop ext rx (pySplit '.' h) (d :: ds) =
      if Covers (lower e) h then .ok true else domainLoop ext rx (pySplit '.' h) ds := by
  obtain ⟨w, rest, hw⟩ : ∃ w rest, pySplit '.' (lower e) = w :: rest := by
    cases hp : pySplit '.' (lower e) with
    | nil => exact absurd hp (pySplit_ne_nil _ _)
    | cons w rest => exact ⟨w, rest, rfl⟩
  obtain ⟨l, rest', hl⟩ : ∃ l rest', pySplit '.' h = l :: rest' := by
    cases hp : pySplit '.' h with
    | nil => exact absurd hp (pySplit_ne_nil _ _)
    | cons w rest => exact ⟨w, rest, rfl⟩
  have hln : '\n' ∉ l := fun hc => hn (mem_split (l := l) (by rw [hl]; simp) hc)
  have hcov : Covers (lower e) h ↔ (w :: rest = l :: rest' ∨ (rest = rest' ∧ Star w l ∧ ¬ ['x', 'n', '-', '-'] <+: w ∧
      ∀ r ∈ rest, '*' ∉ r)) := by
    constructor
    · rintro ⟨ns, hs, h1, h2, h3⟩
      rw [labels_unique h1, labels_unique h2, hw, hl] at h3
      rcases h3 with h3 | ⟨w', l', r', e1, e2, h4⟩
      · exact Or.inl h3
      · injection e1 with e1 e1'
        injection e2 with e2 e2'
        subst e1 e1' e2 e2'
        exact Or.inr ⟨rfl, h4⟩
    · intro h3
      refine ⟨_, _, labels_split _, labels_split _, ?_⟩
      rw [hw, hl]
      rcases h3 with h3 | ⟨rfl, h4⟩
      · exact Or.inl h3
      · exact Or.inr ⟨w, l, rest, rfl, rfl, h4⟩
  rw [domainLoop, he]
  simp only [bind, Except.bind, hw, hl]
  by_cases hlen : (w :: rest).length ≠ (l :: rest').length
  · rw [if_pos hlen, if_neg]
    rw [hcov]
    rintro (h3 | ⟨h3, _⟩)
    · exact hlen (by rw [h3])
    · exact hlen (by rw [List.length_cons, List.length_cons, h3])
  · rw [if_neg hlen]
    by_cases heq : w :: rest = l :: rest'
    · rw [if_pos heq, if_pos (hcov.mpr (Or.inl heq))]
    · rw [if_neg heq]
      by_cases hwild : isWildcardDomain (lower e) = true
      · rw [if_pos hwild]
        obtain ⟨⟨pre, post, hpp, hstar⟩, hxn, hr⟩ := (isWildcardDomain_iff hw (lower_lower e)).mp hwild
        have hdot : '.' ∉ pre ++ post := by
          intro hc
          apply pySplit_no_sep '.' (lower e) w (by rw [hw]; simp) '.' _ rfl
          rw [hpp]; simp at hc ⊢; exact hc
        have hmm : NoMeta (pre ++ post) := by
          intro c hc
          apply noMeta_lower hm c
          apply mem_split (l := w) (by rw [hw]; simp)
          rw [hpp]; simp at hc ⊢; tauto
        have hrx := labelRegex_plain rx (l := l) hstar hdot hmm
        rw [isWildcardMatch_cons]
        by_cases hrr : rest' = rest
        · rw [if_neg (not_not.mpr hrr)]
          by_cases hs1 : w = ['*']
          · rw [if_pos hs1, if_pos]
            rw [hcov]
            exact Or.inr ⟨hrr.symm, ⟨[], l, [], by simp [hs1], by simp, by simp⟩, hxn, hr⟩
          · rw [if_neg hs1, hpp, hrx]
            cases hsm : starMatch pre post l with
            | true =>
              rw [if_pos]
              rw [hcov]
              obtain ⟨mid, hmid⟩ := (starMatch_iff hln).mp hsm
              exact Or.inr ⟨hrr.symm, ⟨pre, mid, post, hpp, hstar, hmid⟩, hxn, hr⟩
            | false =>
              rw [if_neg]
              rw [hcov]
              rintro (h3 | ⟨_, ⟨pre', mid, post', h4, h5, h6⟩, _⟩)
              · exact heq h3
              · rw [hpp] at h4
                obtain ⟨hp1, hp2⟩ : pre = pre' ∧ post = post' := by
                  have hn1 : '*' ∉ pre := fun h => hstar (by simp [h])
                  have hn2 : '*' ∉ pre' := fun h => h5 (by simp [h])
                  have key : ∀ (a b c d : Str), '*' ∉ a → '*' ∉ c → a ++ '*' :: b = c ++ '*' :: d → a = c ∧ b = d := by
                    intro a
                    induction a with
                    | nil =>
                      intro b c d _ hc heq
                      cases c with
                      | nil => simpa using heq
                      | cons x c =>
                        rw [List.nil_append, List.cons_append] at heq
                        injection heq with h1 _
                        exact absurd (by rw [h1]; simp) hc
                    | cons y a ih =>
                      intro b c d ha hc heq
                      cases c with
                      | nil =>
                        rw [List.nil_append, List.cons_append] at heq
                        injection heq with h1 _
                        exact absurd (by rw [h1]; simp) ha
                      | cons x c =>
                        simp at heq ha hc
                        obtain ⟨r1, r2⟩ := ih b c d ha.2 hc.2 heq.2
                        exact ⟨by rw [heq.1, r1], r2⟩
                  exact key _ _ _ _ hn1 hn2 h4
                subst hp1 hp2
                have := (starMatch_iff hln).mpr ⟨mid, h6⟩
                rw [hsm] at this; cases this
        · rw [if_pos (fun h => hrr h), if_neg]
          rw [hcov]
          rintro (h3 | ⟨h3, _⟩)
          · exact heq h3
          · exact hrr h3.symm
      · rw [if_neg hwild, if_neg]
        rw [hcov]
        rintro (h3 | ⟨_, ⟨pre, mid, post, h4, h5, _⟩, h6, h7⟩)
        · exact heq h3
        · exact hwild ((isWildcardDomain_iff hw (lower_lower e)).mpr ⟨⟨pre, post, h4, h5⟩, h6, h7⟩)

theorem domainLoop_sound {h : Str} (hn : '\n' ∉ h) (ds : List Str) (hm : ∀ d ∈ ds, ∀ e, idna ext d = .ok e → NoMeta e)
    (ht : domainLoop ext rx (pySplit '.' h) ds = .ok true) : ∃ d ∈ ds, ∃ e, idna ext d = .ok e ∧ Covers (lower e) h := by
  induction ds with
  | nil => cases ht
  | cons d ds ih =>
    cases he : idna ext d with
    | error err => rw [domainLoop, he] at ht; cases ht
    | ok e =>
      rw [domainLoop_cons ext rx he (hm d (by simp) e he) hn] at ht
      split at ht
      · exact ⟨d, by simp, e, he, by assumption⟩
      · obtain ⟨d', h1, h2⟩ := ih (fun x hx => hm x (by simp [hx])) ht
        exact ⟨d', by simp [h1], h2⟩

theorem domainLoop_complete {h : Str} (hn : '\n' ∉ h) (ds : List Str) (hm : ∀ d ∈ ds, ∃ e, idna ext d = .ok e ∧ NoMeta e) :
    (∃ d ∈ ds, ∃ e, idna ext d = .ok e ∧ Covers (lower e) h) ∧ domainLoop ext rx (pySplit '.' h) ds = .ok true ∨
    (¬ (∃ d ∈ ds, ∃ e, idna ext d = .ok e ∧ Covers (lower e) h)) ∧ domainLoop ext rx (pySplit '.' h) ds = .ok false := by
  induction ds with
  | nil => right; exact ⟨by simp, rfl⟩
  | cons d ds ih =>
    obtain ⟨e, he, hme⟩ := hm d (by simp)
    rw [domainLoop_cons ext rx he hme hn]
    by_cases hc : Covers (lower e) h
    · rw [if_pos hc]
      exact Or.inl ⟨⟨d, by simp, e, he, hc⟩, rfl⟩
    · rw [if_neg hc]
      rcases ih (fun x hx => hm x (by simp [hx])) with ⟨⟨d', h1, h2⟩, h3⟩ | ⟨h1, h3⟩
      · exact Or.inl ⟨⟨d', by simp [h1], h2⟩, h3⟩
      · refine Or.inr ⟨?_, h3⟩
        rintro ⟨d', hd', e', he', hc'⟩
        rcases List.mem_cons.mp hd' with rfl | hd'
        · rw [he] at he'; injection he' with he'; subst he'; exact hc hc'
        · exact h1 ⟨d', hd', e', he', hc'⟩

theorem ipLoop_sound (n : Bytes) (ips : List Str) (h : ipLoop inet n ips = .ok true) :
    ∃ ip ∈ ips, ∃ f, inet.pton f ip = .ok n := by
  induction ips with
  | nil => cases h
  | cons ip ips ih =>
    rw [ipLoop] at h
    cases hp : inet.pton (if ip.contains '.' then .inet else .inet6) ip with
    | error e => rw [hp] at h; cases h
    | ok m =>
      rw [hp] at h
      simp only [bind, Except.bind] at h
      split at h
      · rename_i he
        exact ⟨ip, by simp, _, he ▸ hp⟩
      · obtain ⟨ip', h1, h2⟩ := ih h
        exact ⟨ip', by simp [h1], h2⟩

/-- The result is `True` only for a host that a DNS name of the certificate covers, or for an IP address that is one of the
IP addresses of the certificate. Excluded are hosts with a line feed and names with regular expression metacharacters. -/
theorem C32_true_only_if_partial (c : Cert) (host : Str)
    (hx : ∀ e, idna ext host = .ok e → '\n' ∉ e)
    (hm : ∀ d, DnsName c d → ∀ e, idna ext d = .ok e → NoMeta e)
    (h : isValidDomainIp ext rx inet c host = .ok true) :
    ∃ e, idna ext host = .ok e ∧
      ((¬ IpHost (lower e) ∧ ∃ d, DnsName c d ∧ ∃ n, idna ext d = .ok n ∧ Covers (lower n) (lower e)) ∨
       (IpHost (lower e) ∧ ∃ ip, .ip ip ∈ c.altNames.getD [] ∧ ∃ f g b, inet.pton f (lower e) = .ok b ∧ inet.pton g ip = .ok b)) := by
  unfold isValidDomainIp at h
  cases he : idna ext host with
  | error err => rw [he] at h; cases h
  | ok e =>
    rw [he] at h
    simp only [bind, Except.bind] at h
    refine ⟨e, rfl, ?_⟩
    split at h
    · rename_i hdom
      left
      split at h
      · cases h
      · refine ⟨?_, ?_⟩
        · rintro (hc | hc)
          · simp [hc] at hdom
          · simp [(looksIpv4_iff (newline_lower (hx e he))).mpr hc] at hdom
        · obtain ⟨d, h1, h2⟩ := domainLoop_sound ext rx (newline_lower (hx e he)) _
            (fun d hd => hm d ((mem_validDomains c d).mp hd)) h
          exact ⟨d, (mem_validDomains c d).mp h1, h2⟩
    · rename_i hdom
      right
      refine ⟨?_, ?_⟩
      · unfold IpHost
        by_contra hc
        rw [not_or, ← looksIpv4_iff (newline_lower (hx e he))] at hc
        simp [hc.1, hc.2] at hdom
      · split at h
        · cases h
        · generalize hf : (if (!(lower e).contains ':' && looksIpv4 (lower e)) = true then Family.inet else Family.inet6) = f at h
          cases hp : inet.pton f (lower e) with
          | error err => rw [hp] at h; cases h
          | ok b =>
            rw [hp] at h
            obtain ⟨ip, h1, g, h2⟩ := ipLoop_sound inet b _ h
            exact ⟨ip, (mem_validIps c ip).mp h1, _, g, b, hp, h2⟩

/-- A host name that is covered is accepted, and one that is not is refused, if all names of the certificate can be encoded. -/
theorem C32_domain_iff_partial (c : Cert) {host e : Str} (he : idna ext host = .ok e) (hn : '\n' ∉ e) (hip : ¬ IpHost (lower e))
    (hm : ∀ d, DnsName c d → ∃ n, idna ext d = .ok n ∧ NoMeta n) :
    (isValidDomainIp ext rx inet c host = .ok true ∨ isValidDomainIp ext rx inet c host = .ok false) ∧
      (isValidDomainIp ext rx inet c host = .ok true ↔
        ∃ d, DnsName c d ∧ ∃ n, idna ext d = .ok n ∧ Covers (lower n) (lower e)) := by
  have hip' : (!(lower e).contains ':' && !(!(lower e).contains ':' && looksIpv4 (lower e))) = true := by
    unfold IpHost at hip
    rw [not_or, ← looksIpv4_iff (newline_lower hn)] at hip
    simp [hip.1, hip.2]
  have hd : isValidDomainIp ext rx inet c host = domainLoop ext rx (pySplit '.' (lower e)) (validDomains c) := by
    unfold isValidDomainIp
    rw [he]
    simp only [bind, Except.bind]
    rw [if_pos hip']
    split
    · rename_i h0; rw [h0]; rfl
    · rfl
  have hex : (∃ d, DnsName c d ∧ ∃ n, idna ext d = .ok n ∧ Covers (lower n) (lower e)) ↔
      ∃ d ∈ validDomains c, ∃ n, idna ext d = .ok n ∧ Covers (lower n) (lower e) := by
    simp only [mem_validDomains]
  rw [hd, hex]
  rcases domainLoop_complete ext rx (newline_lower hn) (validDomains c) (fun d h => hm d ((mem_validDomains c d).mp h)) with
    ⟨h1, h2⟩ | ⟨h1, h2⟩
  · exact ⟨Or.inl h2, fun _ => h1, fun _ => h2⟩
  · refine ⟨Or.inr h2, fun h => ?_, fun h => absurd h h1⟩
    rw [h2] at h; cases h

/-- ASCII text is taken as it is, if its labels have an allowed length; otherwise `UnicodeError` is raised. -/
theorem C32_label_length (c : Cert) {host : Str} (ha : ∀ c ∈ host, c.toNat < 128) :
    (Short host → idna ext host = .ok host) ∧
    (¬ Short host → isValidDomainIp ext rx inet c host = .error .unicodeError) := by
  have h1 : host.all (fun c => c.toNat < 128) = true := by simpa using ha
  refine ⟨fun h => ?_, fun h => ?_⟩
  · rw [idna, if_pos h1]
    exact if_pos ((short_iff host).mpr h)
  · have h2 : idna ext host = .error .unicodeError := by
      rw [idna, if_pos h1]
      exact if_neg (fun h' => h ((short_iff host).mp h'))
    unfold isValidDomainIp
    rw [h2]
    rfl

/-- A `*` does not cover more than one label: the covered host has as many labels as the name. -/
theorem C32_label_count {name host : Str} (h : Covers name host) {ns hs : List Str} (h1 : Labels name ns) (h2 : Labels host hs) :
    ns.length = hs.length ∧ ns.tail = hs.tail := by
  obtain ⟨ns', hs', h1', h2', h3⟩ := h
  rw [labels_unique h1, labels_unique h2]
  rw [labels_unique h1', labels_unique h2'] at h3
  rcases h3 with h3 | ⟨w, l, r, e1, e2, _⟩
  · rw [h3]; exact ⟨rfl, rfl⟩
  · rw [e1, e2]; exact ⟨rfl, rfl⟩

/-! Non-vacuity -/

def noExt : Str → Py Str := fun _ => .error .unicodeError
def noRx : Str → Str → Py Bool := fun _ _ => .error .valueError
def cert (ns : List String) : Cert := ⟨some (ns.map fun s => .dns s.toList), []⟩

example : isValidDomainIp noExt noRx shimInet (cert ["other.org", "*.Example.com"]) "WWW.example.COM".toList = .ok true := by decide +kernel
example : isValidDomainIp noExt noRx shimInet (cert ["*.example.com"]) "a.b.example.com".toList = .ok false := by decide +kernel
example : isValidDomainIp noExt noRx shimInet (cert ["w*w.example.com"]) "wxyw.example.com".toList = .ok true := by decide +kernel
example : isValidDomainIp noExt noRx shimInet (cert ["w*w.example.com"]) "w.example.com".toList = .ok false := by decide +kernel
example : isValidDomainIp noExt noRx shimInet (cert ["xn--*.example.com"]) "xn--a.example.com".toList = .ok false := by decide +kernel
example : isValidDomainIp noExt noRx shimInet ⟨some [.ip "10.0.0.1".toList], []⟩ "10.0.0.1".toList = .ok true := by decide +kernel
example : isValidDomainIp noExt noRx shimInet ⟨some [.ip "10.0.0.1".toList], []⟩ "10.0.0.2".toList = .ok false := by decide +kernel
example : isValidDomainIp noExt noRx shimInet ⟨none, ["a-b.example.com".toList]⟩ "a-b.example.com".toList = .ok true := by decide +kernel
example : ∃ d, DnsName (cert ["*.Example.com"]) d ∧ ∃ n, idna noExt d = .ok n ∧ NoMeta n :=
  ⟨"*.Example.com".toList, by unfold DnsName; rw [if_neg (by decide)]; decide, "*.Example.com".toList, by decide +kernel, by unfold NoMeta; decide⟩

example : DnsName ⟨none, ["a-b.example.com".toList]⟩ "a-b.example.com".toList := by
  unfold DnsName
  rw [if_pos (by decide)]
  exact ⟨by decide, (cnPattern_iff _).mp (by decide +kernel)⟩
example : ¬ HostLike "a-.example.com".toList ∧ ¬ HostLike "localhost".toList :=
  ⟨fun h => absurd ((cnPattern_iff _).mpr h) (by decide +kernel), fun h => absurd ((cnPattern_iff _).mpr h) (by decide +kernel)⟩
example : IpHost "10.0.0.1".toList ∧ ¬ IpHost "10.0.0.1.com".toList :=
  ⟨Or.inr ((looksIpv4_iff (by decide)).mp (by decide +kernel)), by
    rintro (h | h)
    · revert h; decide
    · exact absurd ((looksIpv4_iff (by decide)).mpr h) (by decide +kernel)⟩
example : Short "www.example.com".toList ∧ ¬ Short "www..com".toList :=
  ⟨(short_iff _).mp (by decide +kernel), fun h => absurd ((short_iff _).mpr h) (by decide +kernel)⟩

/-- A host with a line feed is accepted although no name covers it: `$` also matches before a final line feed. -/
theorem C32_line_feed_fails :
    isValidDomainIp noExt noRx shimInet (cert ["w*w.example.com"]) "www\n.example.com".toList = .ok true ∧
    ¬ Covers "w*w.example.com".toList "www\n.example.com".toList := by
  refine ⟨by decide +kernel, ?_⟩
  rintro ⟨ns, hs, h1, h2, h3⟩
  have e1 : pySplit '.' "w*w.example.com".toList = ["w*w".toList, "example".toList, "com".toList] := by decide +kernel
  have e2 : pySplit '.' "www\n.example.com".toList = ["www\n".toList, "example".toList, "com".toList] := by decide +kernel
  rw [labels_unique h1, labels_unique h2, e1, e2] at h3
  rcases h3 with h3 | ⟨w, l, r, a, b, ⟨pre, mid, post, h4, h5, h6⟩, _⟩
  · revert h3; decide
  · injection a with a _
    injection b with b _
    subst a b
    have h7 := congrArg List.getLast? h4
    have h8 := congrArg List.getLast? h6
    have hp : post ≠ [] := by
      rintro rfl
      simp at h7
    obtain ⟨x, post, rfl⟩ := List.exists_cons_of_ne_nil hp
    rw [List.getLast?_append, List.getLast?_cons_cons] at h7
    rw [List.getLast?_append] at h8
    obtain ⟨y, hy⟩ : ∃ y, (x :: post).getLast? = some y := ⟨_, List.getLast?_eq_some_getLast (by simp)⟩
    rw [hy] at h7 h8
    have := h7.trans h8.symm
    revert this; decide

/-- A metacharacter in a wildcard label is not escaped: the label `a|*` becomes `^a|.*$`, which matches everything. -/
theorem C32_metacharacter_fails (hrx : rx "a|*".toList "b".toList = .ok true) :
    isValidDomainIp noExt rx shimInet (cert ["a|*.example.com"]) "b.example.com".toList = .ok true ∧
    ¬ Covers "a|*.example.com".toList "b.example.com".toList := by
  have e1 : pySplit '.' "a|*.example.com".toList = ["a|*".toList, "example".toList, "com".toList] := by decide +kernel
  have e2 : pySplit '.' "b.example.com".toList = ["b".toList, "example".toList, "com".toList] := by decide +kernel
  constructor
  · have : domainLoop noExt rx ["b".toList, "example".toList, "com".toList] ["a|*.example.com".toList] = .ok true := by
      have i1 : idna noExt "a|*.example.com".toList = .ok "a|*.example.com".toList := by decide +kernel
      have i2 : lower "a|*.example.com".toList = "a|*.example.com".toList := by decide +kernel
      have i3 : isWildcardDomain "a|*.example.com".toList = true := by decide +kernel
      have i4 : isWildcardMatch rx ["b".toList, "example".toList, "com".toList] ["a|*".toList, "example".toList, "com".toList] = .ok true := by
        have : isWildcardMatch rx ["b".toList, "example".toList, "com".toList] ["a|*".toList, "example".toList, "com".toList] =
          rx "a|*".toList "b".toList := rfl
        rw [this, hrx]
      rw [domainLoop, i1]
      simp only [bind, Except.bind, i2, e1, i3, i4]
      rfl
    exact this
  · rintro ⟨ns, hs, h1, h2, h3⟩
    rw [labels_unique h1, labels_unique h2, e1, e2] at h3
    rcases h3 with h3 | ⟨w, l, r, a, b, ⟨pre, mid, post, h4, h5, h6⟩, _⟩
    · revert h3; decide
    · injection a with a _
      injection b with b _
      subst a b
      cases pre with
      | nil => simp at h4
      | cons x pre =>
        simp at h4 h6
        have := h4.1.trans h6.1.symm
        revert this; decide

end Asn1.Host
