import Verif.Lemmas.Inet

/-!
# C30 — `inet_ntop` / `inet_pton`

`Ipv4Text`, `Ipv6Text` and `Groups` are in Spec/Inet.lean.
-/

namespace Asn1.Props
open Asn1 Spec

/-- IPv4: text form, and back. -/
theorem C30_v4 (b : Bytes) (hb : b.length = 4) :
    ∃ s, Ipv4Text b s ∧ inetNtop .inet b = .ok s ∧ inetPton .inet s = .ok b := by
  refine ⟨_, rfl, by simp [inetNtop, hb], ?_⟩
  have hne : b.map (fun x => pyStrNat x.toNat) ≠ [] := by
    intro h; rw [List.map_eq_nil_iff] at h; rw [h] at hb; cases hb
  have hsplit : pySplit '.' (pyJoin ['.'] (b.map fun x => pyStrNat x.toNat)) = b.map fun x => pyStrNat x.toNat := by
    apply pySplit_join _ _ hne
    intro p hp c hc
    obtain ⟨x, _, rfl⟩ := List.mem_map.mp hp
    obtain ⟨d, hd, rfl⟩ := mem_pyStrNat _ c hc
    exact (digitChar_facts d hd).2.2.2.1
  simp only [inetPton, hsplit, List.length_map, hb, ne_eq, not_true_eq_false, if_false]
  have := partsLoop_map (conv := pyInt) (limit := 255) pyStrNat pyInt_pyStrNat (b.map UInt8.toNat) [] (by
    intro n hn
    obtain ⟨x, _, rfl⟩ := List.mem_map.mp hn
    have := x.toNat_lt
    omega)
  rw [List.map_map] at this
  rw [show (b.map fun x => pyStrNat x.toNat) = b.map (pyStrNat ∘ UInt8.toNat) from rfl, this]
  have hid : b.map (UInt8.ofNat ∘ UInt8.toNat) = b := by
    conv_rhs => rw [← List.map_id b]
    apply List.map_congr_left
    intro x _; simp
  simp [bind, Except.bind, hid]

/-- IPv6: the text is the one of the specification, for every address. -/
theorem C30_v6_text (b : Bytes) (hb : b.length = 16) :
    ∃ gs s, gs.length = 8 ∧ Groups gs b ∧ Ipv6Text gs s ∧ inetNtop .inet6 b = .ok s := by
  obtain ⟨h1, h2, h3⟩ := unpackH_spec b (by omega)
  have hl : (unpackH b).length = 8 := by omega
  rcases zeroRuns_spec (unpackH b) hl with ⟨hlt, hno⟩ | ⟨e, hge, hfind, hfl⟩
  · refine ⟨unpackH b, _, hl, ⟨h3, by rw [← packH_eq, h1]⟩, .inl ⟨hno, rfl⟩, ?_⟩
    simp [inetNtop, hb, hlt]
  · refine ⟨unpackH b, _, hl, ⟨h3, by rw [← packH_eq, h1]⟩, .inr ⟨_, _, hfl, rfl⟩, ?_⟩
    unfold inetNtop
    simp only [hb, ne_eq, not_true_eq_false, if_false]
    rw [if_neg (by omega), hfind]
    simp [List.map_take, List.map_drop]

/-- There is only one such text. -/
theorem C30_v6_unique (gs : List Nat) (s s' : Str) (h : Ipv6Text gs s) (h' : Ipv6Text gs s') : s = s' := by
  rcases h with ⟨h1, rfl⟩ | ⟨i, k, h1, rfl⟩ <;> rcases h' with ⟨h2, rfl⟩ | ⟨i', k', h2, rfl⟩
  · rfl
  · exact absurd h2 (h1 _ _)
  · exact absurd h1 (h2 _ _)
  · obtain ⟨rfl, rfl⟩ := firstLongest_unique h1 h2; rfl

/-- IPv6 back from text. Missing from the property: addresses whose compressed run is at the very beginning or end,
for which `inet_pton` refuses the text made by `inet_ntop`, see `C30_v6_edge`. -/
theorem C30_v6_partial (b : Bytes) (hb : b.length = 16) (gs : List Nat) (hg : Groups gs b) (hl : gs.length = 8)
    (hin : ∀ i k, FirstLongest gs i k → 0 < i ∧ i + k < 8) (s : Str) (hs : inetNtop .inet6 b = .ok s) :
    inetPton .inet6 s = .ok b := by
  obtain ⟨gs', s', hl', hg', ht, hs'⟩ := C30_v6_text b hb
  rw [hs] at hs'
  injection hs' with hs'
  subst hs'
  have hgs : gs' = gs := by
    rw [← unpackH_packH gs hg.1, ← unpackH_packH gs' hg'.1, packH_eq, packH_eq, ← hg.2, ← hg'.2]
  subst hgs
  have hpack : packH gs' = b := by rw [packH_eq, ← hg.2]
  have hnc : ∀ ns : List Nat, ns ≠ [] → pySplit ':' (pyJoin [':'] (ns.map pyHexNat)) = ns.map pyHexNat := by
    intro ns hne
    apply pySplit_join _ _ (by simpa using hne)
    intro p hp c hc
    obtain ⟨x, _, rfl⟩ := List.mem_map.mp hp
    exact pyHexNat_no_colon x c hc
  have hloop := partsLoop_map (conv := pyIntHex) (limit := 65535) pyHexNat pyIntHex_pyHexNat gs' [] (by
    intro n hn
    have := hg.1 n hn
    omega)
  rcases ht with ⟨_, rfl⟩ | ⟨i, k, hfl, rfl⟩
  · have hne : gs' ≠ [] := by rintro rfl; cases hl
    have hcnt : pyCount [':', ':'] (pyJoin [':'] (gs'.map pyHexNat)) = 0 := by
      unfold pyCount
      rw [splitDC_one _ (hexed_parts gs')]; rfl
    simp only [inetPton, hcnt, hnc gs' hne, List.length_map, hl, ne_eq, not_true_eq_false, if_false, gt_iff_lt, Nat.not_lt_zero, if_true]
    simp only [hloop, bind, Except.bind, List.nil_append, hl, if_true, hpack]
  · obtain ⟨hi, hik⟩ := hin i k hfl
    have hsp := splitDC_two _ _ (hexed_parts (gs'.take i)) (hexed_parts (gs'.drop (i + k)))
    have hcnt : pyCount [':', ':'] (pyJoin [':'] ((gs'.take i).map pyHexNat) ++ [':', ':'] ++ pyJoin [':'] ((gs'.drop (i + k)).map pyHexNat)) = 1 := by
      unfold pyCount
      rw [hsp]; rfl
    have ht1 : gs'.take i ≠ [] := by
      intro h; have := congrArg List.length h; rw [List.length_take, hl, List.length_nil] at this; omega
    have ht2 : gs'.drop (i + k) ≠ [] := by
      intro h; have := congrArg List.length h; rw [List.length_drop, hl, List.length_nil] at this; omega
    have hparts : (gs'.take i).map pyHexNat ++ List.replicate (8 - ((gs'.take i).map pyHexNat).length - ((gs'.drop (i + k)).map pyHexNat).length) ['0'] ++
        (gs'.drop (i + k)).map pyHexNat = gs'.map pyHexNat := by
      have hz : pyHexNat 0 = ['0'] := by decide +kernel
      have hk : 8 - ((gs'.take i).map pyHexNat).length - ((gs'.drop (i + k)).map pyHexNat).length = k := by simp; omega
      rw [hk, ← hz, ← List.map_replicate, ← List.map_append, ← List.map_append]
      congr 1
      have hrun : List.replicate k 0 = (gs'.drop i).take k := by
        apply List.ext_getElem?
        intro t
        by_cases ht : t < k
        · rw [List.getElem?_replicate, if_pos ht, List.getElem?_take, if_pos ht, List.getElem?_drop, hfl.2.1 t ht]
        · rw [List.getElem?_replicate, if_neg ht, List.getElem?_take, if_neg ht]
      rw [hrun, List.append_assoc, ← List.drop_drop, List.take_append_drop, List.take_append_drop]
    simp only [inetPton, hcnt, hsp, hnc _ ht1, hnc _ ht2, hparts, gt_iff_lt, Nat.lt_irrefl, if_false, Nat.one_ne_zero]
    simp only [hloop, bind, Except.bind, List.nil_append, hl, if_true, hpack]

/-- The loopback address `::1` and `1::` are refused. -/
theorem C30_v6_edge :
    inetNtop .inet6 [0, 0, 0, 0, 0, 0, 0, 0, 0, 0, 0, 0, 0, 0, 0, 1] = .ok "::1".toList ∧
    inetPton .inet6 "::1".toList = .error .valueError ∧
    inetNtop .inet6 [0, 1, 0, 0, 0, 0, 0, 0, 0, 0, 0, 0, 0, 0, 0, 0] = .ok "1::".toList ∧
    inetPton .inet6 "1::".toList = .error .valueError := by decide +kernel

/-- Every address whose compressed run touches an end is refused by `inet_pton`. -/
theorem C30_v6_edge_all (b : Bytes) (hb : b.length = 16) (gs : List Nat) (hg : Groups gs b) (hl : gs.length = 8) (i k : Nat)
    (hfl : FirstLongest gs i k) (hout : i = 0 ∨ i + k = 8) (s : Str) (hs : inetNtop .inet6 b = .ok s) :
    inetPton .inet6 s = .error .valueError := by
  obtain ⟨gs', s', hl', hg', ht, hs'⟩ := C30_v6_text b hb
  rw [hs] at hs'
  injection hs' with hs'
  subst hs'
  have hgs : gs' = gs := by
    rw [← unpackH_packH gs hg.1, ← unpackH_packH gs' hg'.1, packH_eq, packH_eq, ← hg.2, ← hg'.2]
  subst hgs
  rcases ht with ⟨hno, _⟩ | ⟨i', k', hfl', rfl⟩
  · exact absurd hfl (hno i k)
  · obtain ⟨rfl, rfl⟩ := firstLongest_unique hfl hfl'
    have hsp := splitDC_two _ _ (hexed_parts (gs'.take i)) (hexed_parts (gs'.drop (i + k)))
    have hcnt : pyCount [':', ':'] (pyJoin [':'] ((gs'.take i).map pyHexNat) ++ [':', ':'] ++ pyJoin [':'] ((gs'.drop (i + k)).map pyHexNat)) = 1 := by
      unfold pyCount
      rw [hsp]; rfl
    have hmem : ∀ ps : List Str, [] ∈ ps → (∀ p ∈ ps, p = [] ∨ ∃ n : Nat, n < 65536 ∧ p = pyHexNat n) → ∀ acc, partsLoop pyIntHex 65535 ps acc = .error .valueError := by
      intro ps
      induction ps with
      | nil => intro h; cases h
      | cons p ps ih =>
        intro hm hall acc
        rcases hall p (by simp) with rfl | ⟨n, hn, rfl⟩
        · rfl
        · simp only [partsLoop, pyIntHex_pyHexNat, bind, Except.bind]
          rw [if_neg (by omega)]
          refine ih ?_ (fun q hq => hall q (by simp [hq])) _
          rcases List.mem_cons.mp hm with h | h
          · exact absurd h.symm (pyHexNat_ne_nil n)
          · exact h
    have hsj : ∀ ns : List Nat, (∀ n ∈ ns, n < 65536) → (∀ p ∈ pySplit ':' (pyJoin [':'] (ns.map pyHexNat)), p = [] ∨ ∃ n : Nat, n < 65536 ∧ p = pyHexNat n) ∧
        (ns = [] → [] ∈ pySplit ':' (pyJoin [':'] (ns.map pyHexNat))) := by
      intro ns hns
      cases hn : ns with
      | nil => exact ⟨by simp [pyJoin, pySplit], by simp [pyJoin, pySplit]⟩
      | cons n ns' =>
        rw [← hn]
        refine ⟨?_, by intro h; rw [hn] at h; cases h⟩
        rw [pySplit_join _ _ (by simp [hn]) (by
          intro p hp c hc
          obtain ⟨x, _, rfl⟩ := List.mem_map.mp hp
          exact pyHexNat_no_colon x c hc)]
        intro p hp
        obtain ⟨x, hx, rfl⟩ := List.mem_map.mp hp
        exact .inr ⟨x, hns x hx, rfl⟩
    obtain ⟨hA1, hA2⟩ := hsj (gs'.take i) (fun n hn => hg.1 n (List.mem_of_mem_take hn))
    obtain ⟨hB1, hB2⟩ := hsj (gs'.drop (i + k)) (fun n hn => hg.1 n (List.mem_of_mem_drop hn))
    simp only [inetPton, hcnt, hsp, gt_iff_lt, Nat.lt_irrefl, if_false, Nat.one_ne_zero]
    rw [hmem]
    · rfl
    · simp only [List.mem_append]
      rcases hout with rfl | h8
      · left; left; exact hA2 (by simp)
      · right; exact hB2 (by apply List.drop_eq_nil_of_le; omega)
    · intro p hp
      simp only [List.mem_append, List.mem_replicate] at hp
      rcases hp with (h | h) | h
      · exact hA1 p h
      · exact .inr ⟨0, by decide, by rw [h.2]; decide +kernel⟩
      · exact hB1 p h

/-- IPv4 text is accepted exactly when it has four parts that `int()` converts to values from 0 to 255; everything else
raises `ValueError`. -/
theorem C30_v4_accepts (s : Str) (b : Bytes) :
    (inetPton .inet s = .ok b ↔ ∃ ns : List Nat, ns.length = 4 ∧ b = ns.map UInt8.ofNat ∧
      List.Forall₂ (fun p (m : Nat) => pyInt p = .ok (m : Int) ∧ m ≤ 255) (pySplit '.' s) ns) ∧
    ∀ e, inetPton .inet s = .error e → e = .valueError := by
  constructor
  · simp only [inetPton]
    by_cases hl : (pySplit '.' s).length = 4
    · rw [if_neg (by simpa using hl)]
      simp only [bind, Except.bind]
      cases hp : partsLoop pyInt 255 (pySplit '.' s) [] with
      | error e =>
        simp only
        constructor
        · intro h; cases h
        · rintro ⟨ns, _, _, h⟩
          have := (partsLoop_ok (conv := pyInt) (limit := 255) (ps := pySplit '.' s) (acc := []) (ns := ns)).mpr
            ⟨ns, rfl, h.imp fun _ _ h => ⟨h.1, by omega⟩⟩
          rw [hp] at this; cases this
      | ok r =>
        obtain ⟨ns, err⟩ := r
        simp only
        cases err with
        | true =>
          simp only [if_true]
          constructor
          · intro h; cases h
          · rintro ⟨ns', _, _, h⟩
            have := (partsLoop_ok (conv := pyInt) (limit := 255) (ps := pySplit '.' s) (acc := []) (ns := ns')).mpr
              ⟨ns', rfl, h.imp fun _ _ h => ⟨h.1, by omega⟩⟩
            rw [hp] at this
            injection this with this
            injection this with _ this
            cases this
        | false =>
          obtain ⟨ms, hms, hf⟩ := partsLoop_ok.mp hp
          rw [List.nil_append] at hms
          subst hms
          simp only [Bool.false_eq_true, if_false, Except.ok.injEq]
          constructor
          · rintro rfl
            exact ⟨ns, by rw [← hf.length_eq, hl], rfl, hf.imp fun _ _ h => ⟨h.1, by omega⟩⟩
          · rintro ⟨ns', _, rfl, h⟩
            have := (partsLoop_ok (conv := pyInt) (limit := 255) (ps := pySplit '.' s) (acc := []) (ns := ns')).mpr
              ⟨ns', rfl, h.imp fun _ _ h => ⟨h.1, by omega⟩⟩
            rw [hp] at this
            injection this with this
            injection this with this _
            rw [this]
    · rw [if_pos (by simpa using hl)]
      constructor
      · intro h; cases h
      · rintro ⟨ns, h4, _, h⟩
        exact absurd (h.length_eq.trans h4) hl
  · intro e h
    simp only [inetPton] at h
    split at h
    · injection h with h; exact h.symm
    · simp only [bind, Except.bind] at h
      split at h
      · next he => injection h with h; subst h; exact partsLoop_error (fun _ _ => pyInt_error) he
      · split at h
        · injection h with h; exact h.symm
        · cases h

/-- Malformed IPv6 text raises `ValueError`, or `struct.error` when a group is out of range or there are too many groups. -/
theorem C30_v6_error_partial (s : Str) (e : PyErr) (h : inetPton .inet6 s = .error e) : e = .valueError ∨ e = .structError := by
  simp only [inetPton] at h
  split at h
  · injection h with h; exact .inl h.symm
  · simp only [bind, Except.bind] at h
    split at h
    · next he => injection h with h; subst h; exact .inl (partsLoop_error (fun _ _ => pyIntHex_error) he)
    · split at h
      · cases h
      · injection h with h; exact .inr h.symm

/-- The refusal is not always a `ValueError`, and some malformed text is accepted. -/
theorem C30_refusal_fails :
    inetPton .inet6 "1:2:3:4:5:6:7:fffff".toList = .error .structError ∧
    inetPton .inet6 "1:2:3:4:5::6:7:8:9".toList = .error .structError ∧
    inetPton .inet6 "1:2:3:4:5:6:7::8:fffff".toList = .ok [0, 1, 0, 2, 0, 3, 0, 4, 0, 5, 0, 6, 0, 7, 0, 8] ∧
    inetPton .inet " 1.+2.0_3.4".toList = .ok [1, 2, 3, 4] := by decide +kernel

/-! ### Non-vacuity -/

example : inetNtop .inet6 [0x20, 0x01, 0x0d, 0xb8, 0, 0, 0, 0, 0, 1, 0, 0, 0, 0, 0, 2] = .ok "2001:db8::1:0:0:2".toList := by decide +kernel
example : Groups [0x2001, 0xdb8, 0, 0, 1, 0, 0, 2] [0x20, 0x01, 0x0d, 0xb8, 0, 0, 0, 0, 0, 1, 0, 0, 0, 0, 0, 2] :=
  ⟨by decide, by decide +kernel⟩
example : FirstLongest [0x2001, 0xdb8, 0, 0, 1, 0, 0, 2] 2 2 := by
  rcases zeroRuns_spec [0x2001, 0xdb8, 0, 0, 1, 0, 0, 2] rfl with ⟨h, _⟩ | ⟨e, _, h2, h3⟩
  · exact absurd h (by decide +kernel)
  · have : e = (2, 2) := by
      have h4 : (zeroRuns (List.map (· == 0) [0x2001, 0xdb8, 0, 0, 1, 0, 0, 2])).runs.find? (fun e => e.1 == (zeroRuns (List.map (· == 0) [0x2001, 0xdb8, 0, 0, 1, 0, 0, 2])).longest) = some (2, 2) := by decide +kernel
      rw [h4] at h2
      injection h2 with h2; exact h2.symm
    subst this
    exact h3
example : inetPton .inet6 "2001:db8::1:0:0:2".toList = .ok [0x20, 0x01, 0x0d, 0xb8, 0, 0, 0, 0, 0, 1, 0, 0, 0, 0, 0, 2] := by decide +kernel
example : inetNtop .inet [192, 0, 2, 255] = .ok "192.0.2.255".toList ∧ inetPton .inet "192.0.2.255".toList = .ok [192, 0, 2, 255] := by decide +kernel

end Asn1.Props
