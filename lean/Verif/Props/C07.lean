import Verif.Lemmas.Integer

/-!
# C07 — INTEGER and ENUMERATED

`p` is any value-less instance with any tagging (`Integer()`, `Integer(implicit=..)`, `Integer(explicit=..)`, ...).
A name map is a list of (number, name) pairs with distinct numbers (a Python dict).
-/

namespace Asn1.Props
open Asn1 Spec

theorem blank_new : Blank Integer.new ∧ Blank Enumerated.new ∧ Blank Boolean.new := by
  refine ⟨⟨rfl, by decide, rfl, by simp [Integer.new]⟩, ⟨rfl, by decide, rfl, by simp [Enumerated.new]⟩,
    ⟨rfl, by decide, rfl, by simp [Boolean.new]⟩⟩

/-- Every integer: `native` gives it back, the contents are the shortest two's complement form. -/
theorem C07_set_native (p : Obj IntNative) (n : Int) :
    ∃ o c, Integer.set none p (.int n) = .ok o ∧ o.contents = some c ∧
      Integer.native none o = .ok (some (.int n), o) ∧ c ≠ [] ∧ valS c = n ∧
      ∀ d : Bytes, d ≠ [] → valS d = n → c.length ≤ d.length ∧ (d.length = c.length → d = c) := by
  obtain ⟨c, h1, h2, h3⟩ := Integer.setInt_spec none p n
  refine ⟨_, c, h1, rfl, rfl, ?_, h3, ?_⟩
  · rw [intToBytes_signed n] at h2
    injection h2 with h2
    intro he
    rw [he] at h2
    have := congrArg List.length h2
    simp at this
    exact (signedWidth_fits n).2.2 this
  · rw [intToBytes_signed n] at h2
    injection h2 with h2
    subst h2
    intro d hd hv
    have hr := valS_range d hd
    rw [hv] at hr
    exact ⟨by rw [beBytes_length]; exact signedWidth_min n d.length (by simpa using hd) hr.1 hr.2,
      fun hl => valS_inj _ _ hl (by rw [hv, h3])⟩

/-- Encode and load gives the number (or, with a map, the number's name) back; the loaded contents are the
encoded ones. Holds for every tagging. -/
theorem C07_dump_load (map : Option IntMap) (p o o1 : Obj IntNative) (n : Int) (bytes : Bytes) (strict : Bool)
    (hp : Blank p) (hs : Integer.set map p (.int n) = .ok o) (hd : Integer.dump map o = .ok (bytes, o1))
    (hf : Fits bytes) :
    ∃ o2 o3 v, Integer.load p bytes strict = .ok o2 ∧ Integer.native map o2 = .ok (some v, o3) ∧
      (∃ o', Integer.native map o = .ok (some v, o')) ∧ o2.contents = o.contents ∧
      (∀ m s, map = some m → m.get n = some s → v = .name s) ∧
      ((∀ m, map = some m → m.get n = none) → v = .int n) := by
  obtain ⟨c, h1, h2, h3⟩ := Integer.setInt_spec map p n
  have hs' : Integer.setInt map p n = .ok o := hs
  rw [h1] at hs'
  injection hs' with hs'
  subst hs'
  unfold Integer.dump at hd
  rw [primDump_fresh rfl] at hd
  obtain ⟨h, hb, hl⟩ := load_dump_put (bad := []) hp strict hd hf
  have hnl := Integer.native_loaded map (p.loaded h c) c rfl rfl
  rw [h3] at hnl
  refine ⟨_, _, Integer.show map n, hl, hnl, ⟨_, rfl⟩, rfl, ?_, ?_⟩
  · rintro m s rfl hm
    simp [Integer.show, hm]
  · intro hm
    unfold Integer.show
    cases map with
    | none => rfl
    | some m => simp [hm m rfl]

/-- Untagged encoding never fails. -/
theorem C07_dump_total (map : Option IntMap) (n : Int) :
    ∃ o c, Integer.set map Integer.new (.int n) = .ok o ∧ o.contents = some c ∧
      (Fits c → ∃ h o1, Integer.dump map o = .ok (h ++ c, o1) ∧ parse (h ++ c) true = .ok ⟨0, 0, 2, h, c, []⟩) := by
  obtain ⟨c, h1, h2, h3⟩ := Integer.setInt_spec map Integer.new n
  refine ⟨_, c, h1, rfl, ?_⟩
  intro hf
  obtain ⟨h, ha, hb⟩ := dump_put_total (k := false) (Integer.show map n) blank_new.1 rfl hf
  exact ⟨h, _, (primDump_fresh rfl).trans ha, (dumpHeader_parse (by decide) (by decide) hf hb).1⟩

/-- Mapped types: a name of the map sets its number, reads back as the name; setting the number is the same. -/
theorem C07_named (m : IntMap) (p : Obj IntNative) (hk : (m.map Prod.fst).Nodup) (hn : (m.map Prod.snd).Nodup)
    (n : Int) (s : String) (h : (n, s) ∈ m) :
    ∃ o c, Integer.set (some m) p (.name s) = .ok o ∧ Integer.set (some m) p (.int n) = .ok o ∧
      Enumerated.set (some m) p (.name s) = .ok o ∧ Enumerated.set (some m) p (.int n) = .ok o ∧
      Integer.native (some m) o = .ok (some (.name s), o) ∧ Enumerated.native (some m) o = .ok (some (.name s), o) ∧
      o.contents = some c ∧ valS c = n := by
  obtain ⟨c, h1, h2, h3⟩ := Integer.setInt_spec (some m) p n
  have hg := IntMap.get_of_mem hk h
  have hr := IntMap.rev_of_mem hn h
  have hsh : Integer.show (some m) n = .name s := by simp [Integer.show, hg]
  rw [hsh] at h1
  refine ⟨_, c, ?_, h1, ?_, ?_, rfl, rfl, rfl, h3⟩
  · simp only [Integer.set, hr, h1]
  · simp only [Enumerated.set, hr, Integer.set, h1]
  · simp only [Enumerated.set, hg, Integer.set, h1]

/-- Names outside the map are refused with `ValueError`; so are all names without a map. -/
theorem C07_unknown_name (m : IntMap) (p : Obj IntNative) (s : String) (h : s ∉ m.map Prod.snd) :
    Integer.set (some m) p (.name s) = .error .valueError ∧ Enumerated.set (some m) p (.name s) = .error .valueError ∧
      Integer.set none p (.name s) = .error .valueError := by
  simp only [Integer.set, Enumerated.set, IntMap.rev_none h, and_self]

/-- Numbers outside the map: Integer keeps the number, Enumerated refuses it on set and when reading a
loaded value. -/
theorem C07_unmapped_number (m : IntMap) (p : Obj IntNative) (n : Int) (h : n ∉ m.map Prod.fst) :
    (∃ o, Integer.set (some m) p (.int n) = .ok o ∧ Integer.native (some m) o = .ok (some (.int n), o)) ∧
    Enumerated.set (some m) p (.int n) = .error .valueError ∧
    ∀ (o : Obj IntNative) (c : Bytes), o.contents = some c → o.native = none → valS c = n →
      Enumerated.native (some m) o = .error .keyError := by
  have hg := IntMap.get_none h
  obtain ⟨c, h1, h2, h3⟩ := Integer.setInt_spec (some m) p n
  have hsh : Integer.show (some m) n = .int n := by simp [Integer.show, hg]
  rw [hsh] at h1
  refine ⟨⟨_, h1, rfl⟩, by simp only [Enumerated.set, hg], ?_⟩
  intro o c hc hn hv
  unfold Enumerated.native
  simp only [hc, hn, intFromBytes_signed, hv, hg]

/-- A loaded ENUMERATED with a mapped number reads as the name. -/
theorem C07_enumerated_loaded (m : IntMap) (o : Obj IntNative) (hk : (m.map Prod.fst).Nodup) (n : Int) (s : String)
    (h : (n, s) ∈ m) (c : Bytes) (hc : o.contents = some c) (hn : o.native = none) (hv : valS c = n) :
    ∃ o', Enumerated.native (some m) o = .ok (some (.name s), o') := by
  refine ⟨{ o with native := some (.name s) }, ?_⟩
  unfold Enumerated.native
  simp only [hc, hn, intFromBytes_signed, hv, IntMap.get_of_mem hk h]

/-- Non-vacuity: -129 under explicit tag [0] inside application tag 40. -/
example : (do
    let o ← Integer.set none (initTagging Integer.new { explicit := [(2, 0), (1, 40)] }) (.int (-129))
    let (b, _) ← Integer.dump none o
    pure b : Py Bytes) = .ok [0x7f, 0x28, 0x06, 0xa0, 0x04, 0x02, 0x02, 0xff, 0x7f] := by decide +kernel

example : (do
    let o ← Integer.load (initTagging Integer.new { explicit := [(2, 0), (1, 40)] })
      [0x7f, 0x28, 0x06, 0xa0, 0x04, 0x02, 0x02, 0xff, 0x7f]
    let (v, _) ← Integer.native none o
    pure v : Py (Option IntNative)) = .ok (some (.int (-129))) := by decide +kernel

example : (do
    let o ← Enumerated.set (some [(0, "good"), (1, "revoked")]) Enumerated.new (.name "revoked")
    let (b, _) ← Enumerated.dump (some [(0, "good"), (1, "revoked")]) o
    pure b : Py Bytes) = .ok [0x0a, 0x01, 0x01] := by decide +kernel

end Asn1.Props
