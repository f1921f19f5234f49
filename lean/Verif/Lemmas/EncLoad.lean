import Verif.Lemmas.EncMain

/-! # Loading encodings, and values that encodings have -/

namespace Asn1
open Spec Props

theorem parse_front {t : TLV} {rest : Bytes} (h : Ber 11 t) (strict : Bool) (hs : strict = true → rest = []) :
    ∃ i : Info, i.tlv = t ∧ parse (t.bytes ++ rest) strict = .ok i := by
  cases strict with
  | true =>
    rw [hs rfl, List.append_nil, parse_whole h true]
    exact ⟨_, rfl, rfl⟩
  | false => exact ⟨⟨t.cls, t.method, t.tag, t.header, t.contents, t.trailer⟩, rfl, (parse_ok_iff _ _).mpr ⟨rest, rfl, h⟩⟩

theorem parses_load {E : Env} {c : ClassId} {p : Params} {t : TLV} {n : PyVal} (ha : E.cls c ≠ .any) (hb : Ber 11 t) (h : Parses E (some c) none p t n) :
    ∃ N, ∀ j ≥ N, ∀ strict rest, (strict = true → rest = []) → ∃ v, loadVal E (ops E j) c p (t.bytes ++ rest) strict = .ok v ∧ Readable E N v n := by
  obtain ⟨N, hN⟩ := h
  refine ⟨N, fun j hj strict rest hs => ?_⟩
  obtain ⟨i, hi, hp⟩ := parse_front (rest := rest) hb strict hs
  obtain ⟨v, k1, k2, _⟩ := hN i hi j hj
  refine ⟨v, ?_, k2⟩
  simp only [loadVal, hp, bind, Except.bind]
  cases hE : E.cls c with
  | any => exact absurd hE ha
  | _ => exact k1

theorem free_load {E : Env} {c : ClassId} {t : TLV} {n : PyVal} (ha : E.cls c = .any) (hb : Ber 11 t) (h : FreeParses E t n) :
    ∃ N, ∀ j ≥ N, ∀ strict rest, (strict = true → rest = []) → ∃ v, loadVal E (ops E j) c {} (t.bytes ++ rest) strict = .ok v ∧ Readable E N v n := by
  obtain ⟨N, hN⟩ := free_build h
  refine ⟨N, fun j hj strict rest hs => ?_⟩
  obtain ⟨i, hi, hp⟩ := parse_front (rest := rest) hb strict hs
  obtain ⟨v, k1, k2, _⟩ := hN i hi j hj
  refine ⟨v, ?_, k2⟩
  simp only [loadVal, hp, bind, Except.bind, ha]
  exact k1

theorem readable_value {E : Env} {N : Nat} {v : Val} {n : PyVal} (h : Readable E N v n) : ∀ j ≥ N, ∃ w, (ops E j).native v = .ok (n, w) ∧ Readable E N w n := by
  intro j hj
  obtain ⟨P, hP, h⟩ := h
  obtain ⟨w, h1, h2, _⟩ := hP.native h j hj
  exact ⟨w, h1, P, hP, h2⟩

theorem readable_unique {E : Env} {N M : Nat} {v : Val} {n m : PyVal} (h : Readable E N v n) (h' : Readable E M v m) : n = m := by
  obtain ⟨w, h1, _⟩ := readable_value h (max N M) (by omega)
  obtain ⟨w', h2, _⟩ := readable_value h' (max N M) (by omega)
  rw [h1] at h2
  cases h2; rfl

end Asn1
