import Verif.Props.C25

/-!
# C26: files of several PEM blocks
-/

namespace Asn1.Pem
open Asn1 Asn1.Spec

/-- A file with these objects in this order, in blocks whose base64 text may be broken into lines anywhere. Before, between and after them is any text none of whose lines looks
like a BEGIN line; each block starts on a new line. -/
inductive File : List Item → Bytes → Prop
  | tail {t : Bytes} (ht : ∀ l ∈ splitlines t, ¬ BeginLike l) : File [] t
  | block {t : Bytes} (ht : ∀ l ∈ splitlines t, ¬ BeginLike l) (hend : t = [] ∨ t.getLast? = some 10 ∨ t.getLast? = some 13)
      {name : Str} (hn : ObjectType name) {hs ds : List (Str × Str)} (hh : ∀ h ∈ hs, HeaderOk h) (hd : LastValues hs ds)
      {data pem : Bytes} {ls : List Bytes} (hp : PemText name hs ls pem) (hf : ls.flatten = b64encode data) (hl : ∀ l ∈ ls, l ≠ []) {items : List Item} {b : Bytes}
      (rest : File items b) : File ((name, ds, data) :: items) (t ++ (pem ++ b))

/-- What `armor` wrote can be one of the blocks. -/
theorem File.armored {t : Bytes} (ht : ∀ l ∈ splitlines t, ¬ BeginLike l) (hend : t = [] ∨ t.getLast? = some 10 ∨ t.getLast? = some 13)
    {name : Str} (hn : ObjectType name) {hs : List (Str × Str)} (hh : ∀ h ∈ hs, HeaderOk h) (hnd : (hs.map Prod.fst).Nodup)
    {data pem : Bytes} (ha : armor name data hs = .ok pem) {items : List Item} {b : Bytes} (rest : File items b) :
    File ((name, hs, data) :: items) (t ++ (pem ++ b)) := by
  obtain ⟨pem', ls, h1, h2, h3, h4, _⟩ := C25_format hn hh data
  obtain rfl : pem' = pem := by rw [h1] at ha; injection ha
  exact .block ht hend hn hh (last_nodup hnd) h2 h3 (fun l hl => (h4 l hl).1) rest

theorem lineLoop_trash (fs fe : Bool) (ls : List Bytes) (h : ∀ l ∈ ls, ¬ BeginLike l) (rest : List Bytes) :
    lineLoop (idle fs fe) (ls ++ rest) = lineLoop (idle fs fe) rest := by
  induction ls with
  | nil => rfl
  | cons l ls ih =>
    have hs : lineStep (idle fs fe) l = .ok (none, idle fs fe) := by
      unfold lineStep
      split
      · rfl
      · simp only [idle, matchBegin_none (h l (by simp))]
    rw [List.cons_append, lineLoop, hs]
    exact ih (fun x hx => h x (by simp [hx]))

theorem lineLoop_file {items : List Item} {b : Bytes} (h : File items b) (fs fe : Bool) :
    lineLoop (idle fs fe) (splitlines b) =
      ⟨items, if (items ≠ []) ∨ (fs = true ∧ fe = true) then .ok () else .error .valueError⟩ := by
  induction h generalizing fs fe with
  | tail ht =>
    have := lineLoop_trash fs fe _ ht []
    rw [List.append_nil] at this
    rw [this, lineLoop]
    simp [idle]
  | @block t ht hend name hn hs ds hh hd data pem' ls h2 h3 hl items b rest ih =>
    have hhead : (pem' ++ b).head? ≠ some 10 := by
      rw [h2]
      have : lit "-----BEGIN " = [45] ++ lit "----BEGIN " := by decide
      rw [this]
      simp
    rw [splitlines_append t (pem' ++ b) hend hhead, lineLoop_trash _ _ _ ht,
      unarmorAll_text hn hh hd h2 h3 hl, ih]
    simp

/-- All blocks are yielded in order, and nothing else. -/
theorem C26_blocks {items : List Item} {b : Bytes} (h : File items b) (h0 : items ≠ []) :
    (unarmorAll b).items = items ∧ (unarmorAll b).result = .ok () := by
  have := lineLoop_file h false false
  unfold unarmorAll
  rw [show ({} : Locals) = idle false false from rfl, this]
  simp [h0]

/-- Without `multiple` the first block is returned. -/
theorem C26_first {it : Item} {items : List Item} {b : Bytes} (h : File (it :: items) b) : unarmor b = .ok it := by
  unfold unarmor
  rw [(C26_blocks h (by simp)).1]

/-- Text without a BEGIN line. -/
theorem C26_no_begin {b : Bytes} (h : ∀ l ∈ splitlines b, ¬ BeginLike l) :
    (unarmorAll b).items = [] ∧ (unarmorAll b).result = .error .valueError ∧ unarmor b = .error .valueError := by
  have := lineLoop_file (.tail h) false false
  have h1 : unarmorAll b = ⟨[], .error .valueError⟩ := by
    unfold unarmorAll
    rw [show ({} : Locals) = idle false false from rfl, this]
    simp
  refine ⟨by rw [h1], by rw [h1], ?_⟩
  unfold unarmor
  rw [h1]

/-- `UnicodeDecodeError` is a subclass of `ValueError`. -/
def IsValueError (e : PyErr) : Prop := e = .valueError ∨ e = .unicodeError

theorem b64Loop_error (b : Bytes) (quad left pads : Nat) (out : Bytes) {e : PyErr} (h : b64Loop quad left pads out b = .error e) :
    e = .valueError := by
  induction b generalizing quad left pads out with
  | nil =>
    unfold b64Loop at h
    split at h
    · cases h
    · injection h with h; exact h.symm
  | cons c cs ih =>
    unfold b64Loop at h
    repeat' split at h
    all_goals first | exact ih _ _ _ _ h | (cases h; done)

theorem decodeAscii_error {b : Bytes} {e : PyErr} (h : decodeAscii b = .error e) : e = .unicodeError := by
  unfold decodeAscii at h
  split at h
  · cases h
  · injection h with h; exact h.symm

theorem bodyLine_error {l : Locals} {line : Bytes} {e : PyErr} (h : bodyLine l line = .error e) : IsValueError e := by
  unfold bodyLine at h
  split at h
  · cases hd : b64decode l.data with
    | error e' =>
      rw [hd] at h
      injection h with h
      exact Or.inl (h ▸ b64Loop_error _ _ _ _ _ hd)
    | ok d => rw [hd] at h; cases h
  · cases h

theorem lineStep_error {l : Locals} {line : Bytes} {e : PyErr} (h : lineStep l line = .error e) : IsValueError e := by
  unfold lineStep at h
  split at h
  · cases h
  · split at h
    · split at h
      · cases h
      · rename_i name _
        cases hd : decodeAscii name with
        | error e' =>
          rw [hd] at h
          injection h with h
          exact Or.inr (h ▸ decodeAscii_error hd)
        | ok d => rw [hd] at h; cases h
    · split at h
      · cases hd : decodeAscii line with
        | error e' =>
          rw [hd] at h
          injection h with h
          exact Or.inr (h ▸ decodeAscii_error hd)
        | ok d => rw [hd] at h; cases h
      · exact bodyLine_error h
    · exact bodyLine_error h

theorem bodyLine_none {l l' : Locals} {line : Bytes} (h : bodyLine l line = .ok (none, l')) : l'.foundEnd = l.foundEnd := by
  unfold bodyLine at h
  split at h
  · cases hd : b64decode l.data with
    | error e' => rw [hd] at h; cases h
    | ok d => rw [hd] at h; cases h
  · cases h; rfl

theorem bodyLine_some {l l' : Locals} {line : Bytes} {it : Item} (h : bodyLine l line = .ok (some it, l')) : EndLike line := by
  unfold bodyLine at h
  split at h
  · rename_i hc; exact take5.mp hc
  · cases h

theorem lineStep_none {l l' : Locals} {line : Bytes} (h : lineStep l line = .ok (none, l')) : l'.foundEnd = l.foundEnd := by
  unfold lineStep at h
  split at h
  · cases h; rfl
  · split at h
    · split at h
      · cases h; rfl
      · rename_i name _
        cases hd : decodeAscii name with
        | error e' => rw [hd] at h; cases h
        | ok d => rw [hd] at h; cases h; rfl
    · split at h
      · cases hd : decodeAscii line with
        | error e' => rw [hd] at h; cases h
        | ok d => rw [hd] at h; cases h; rfl
      · exact bodyLine_none h
    · exact bodyLine_none h

theorem lineStep_some {l l' : Locals} {line : Bytes} {it : Item} (h : lineStep l line = .ok (some it, l')) :
    EndLike line ∧ l.state ≠ .trash := by
  unfold lineStep at h
  split at h
  · cases h
  · split at h
    · split at h
      · cases h
      · rename_i name _
        cases hd : decodeAscii name with
        | error e' => rw [hd] at h; cases h
        | ok d => rw [hd] at h; cases h
    · rename_i hst
      split at h
      · cases hd : decodeAscii line with
        | error e' => rw [hd] at h; cases h
        | ok d => rw [hd] at h; cases h
      · exact ⟨bodyLine_some h, by rw [hst]; simp⟩
    · rename_i hst
      exact ⟨bodyLine_some h, by rw [hst]; simp⟩

theorem lineLoop_error (ls : List Bytes) (l : Locals) {e : PyErr} (h : (lineLoop l ls).result = .error e) : IsValueError e := by
  induction ls generalizing l with
  | nil =>
    simp only [lineLoop] at h
    split at h
    · cases h
    · injection h with h; exact Or.inl h.symm
  | cons line ls ih =>
    rw [lineLoop] at h
    split at h
    · rename_i he
      injection h with h
      exact h ▸ lineStep_error he
    · exact ih _ h
    · exact ih _ h

theorem lineLoop_no_items (ls : List Bytes) (l : Locals) (hf : l.foundEnd = false) (h : (lineLoop l ls).items = []) :
    ∃ e, (lineLoop l ls).result = .error e := by
  induction ls generalizing l with
  | nil => exact ⟨.valueError, by simp [lineLoop, hf]⟩
  | cons line ls ih =>
    rw [lineLoop] at h ⊢
    split at h
    · exact ⟨_, rfl⟩
    · rename_i hs
      exact ih _ ((lineStep_none hs).trans hf) h
    · cases h

/-- Every input gives a block or a `ValueError`. -/
theorem C26_refusal (b : Bytes) : (∃ it, unarmor b = .ok it) ∨ ∃ e, unarmor b = .error e ∧ IsValueError e := by
  unfold unarmor
  cases h : (unarmorAll b).items with
  | cons it its => exact Or.inl ⟨it, rfl⟩
  | nil =>
    right
    obtain ⟨e, he⟩ := lineLoop_no_items (splitlines b) {} rfl h
    exact ⟨e, by rw [show (unarmorAll b).result = .error e from he], lineLoop_error _ _ he⟩

/-- With `multiple`, the generator ends or raises a `ValueError`, and it raises if nothing was yielded. -/
theorem C26_refusal_multiple (b : Bytes) :
    ((unarmorAll b).items = [] → (unarmorAll b).result ≠ .ok ()) ∧
      ∀ e, (unarmorAll b).result = .error e → IsValueError e := by
  refine ⟨fun h hok => ?_, fun e he => lineLoop_error _ _ he⟩
  obtain ⟨e, he⟩ := lineLoop_no_items (splitlines b) {} rfl h
  rw [show (unarmorAll b).result = .error e from he] at hok
  cases hok

theorem lineLoop_no_end (ls : List Bytes) (h : ∀ x ∈ ls, ¬ EndLike x) (l : Locals) : (lineLoop l ls).items = [] := by
  induction ls generalizing l with
  | nil => rfl
  | cons line ls ih =>
    rw [lineLoop]
    split
    · rfl
    · exact ih (fun x hx => h x (by simp [hx])) _
    · rename_i hs
      exact absurd (lineStep_some hs).1 (h line (by simp))

/-- Text whose only BEGIN line is never followed by a closing line. -/
theorem C26_no_end {b : Bytes} {pre post : List Bytes} {line : Bytes} (hb : splitlines b = pre ++ line :: post)
    (hpre : ∀ l ∈ pre, ¬ BeginLike l) (hpost : ∀ l ∈ post, ¬ EndLike l) :
    (unarmorAll b).items = [] ∧ ∃ e, unarmor b = .error e ∧ IsValueError e := by
  have h : (unarmorAll b).items = [] := by
    unfold unarmorAll
    rw [hb, show ({} : Locals) = idle false false from rfl, lineLoop_trash _ _ _ hpre, lineLoop]
    split
    · rfl
    · exact lineLoop_no_end _ hpost _
    · rename_i hs
      exact absurd rfl (lineStep_some hs).2
  refine ⟨h, ?_⟩
  rcases C26_refusal b with ⟨it, hit⟩ | hr
  · unfold unarmor at hit
    rw [h] at hit
    split at hit
    · cases ‹[] = _›
    · split at hit <;> cases hit
  · exact hr

/-- Lines with their endings, each LF or CRLF. -/
def withEndings (ls : List (Bytes × Bool)) : Bytes := ls.flatMap fun x => x.1 ++ if x.2 then [13, 10] else [10]

theorem splitlines_withEndings (ls : List (Bytes × Bool)) (h : ∀ x ∈ ls, NoBreak x.1) :
    splitlines (withEndings ls) = ls.map Prod.fst := by
  induction ls with
  | nil => rfl
  | cons x ls ih =>
    obtain ⟨l, e⟩ := x
    have hl := h _ List.mem_cons_self
    rw [withEndings, List.flatMap_cons, ← withEndings, List.map_cons, ← ih (fun y hy => h y (by simp [hy]))]
    cases e
    · simpa using splitlines_line l hl (withEndings ls)
    · simpa using splitlines_line_crlf l hl (withEndings ls)

/-- LF and CRLF give the same result, also when mixed. -/
theorem C26_crlf (ls ms : List (Bytes × Bool)) (h : ∀ x ∈ ls, ∀ c ∈ x.1, c ≠ 10 ∧ c ≠ 13)
    (he : ls.map Prod.fst = ms.map Prod.fst) :
    unarmorAll (withEndings ls) = unarmorAll (withEndings ms) ∧ unarmor (withEndings ls) = unarmor (withEndings ms) := by
  have hm : ∀ x ∈ ms, NoBreak x.1 := by
    intro x hx
    have : x.1 ∈ ls.map Prod.fst := by rw [he]; exact List.mem_map_of_mem hx
    obtain ⟨y, hy, hxy⟩ := List.mem_map.mp this
    exact hxy ▸ h y hy
  have h1 : unarmorAll (withEndings ls) = unarmorAll (withEndings ms) := by
    unfold unarmorAll
    rw [splitlines_withEndings ls h, splitlines_withEndings ms hm, he]
  exact ⟨h1, by unfold unarmor; rw [h1]⟩

instance (l : Bytes) : Decidable (BeginLike l) := by unfold BeginLike; infer_instance

/-- A file with text around two blocks. -/
example : ∃ b, File [("A".toList, [], [1, 2, 3]), ("B C".toList, [("x".toList, "y z".toList)], [])] b ∧
    b = lit "text\r\n-----BEGIN A-----\nAQID\n-----END A-----\nmore\n-----BEGIN B C-----\nx: y z\n\n-----END B C-----\nend" := by
  refine ⟨_, .armored (t := lit "text\r\n") (by decide) (by decide) (by unfold ObjectType; decide) (by simp) (by simp) rfl
    (.armored (t := lit "more\n") (by decide) (by decide) (by unfold ObjectType; decide) ?_ (by simp) rfl
      (.tail (t := lit "end") (by decide))), ?_⟩
  · intro h hh
    obtain rfl := List.mem_singleton.mp hh
    exact ⟨by decide, by decide, by intro c hc; cases hc; decide, by intro c hc; cases hc; decide⟩
  · decide

/-- A later block that is cut off is dropped without an error. -/
theorem C26_cut_off_block :
    (unarmorAll (lit "-----BEGIN A-----\nAQID\n-----END A-----\n-----BEGIN B-----\nAQID\n")).items = [("A".toList, [], [1, 2, 3])] ∧
    (unarmorAll (lit "-----BEGIN A-----\nAQID\n-----END A-----\n-----BEGIN B-----\nAQID\n")).result = .ok () :=
  ⟨rfl, rfl⟩

/-- The BEGIN line of the next block closes a block that is cut off, and the next block is lost. -/
theorem C26_begin_closes :
    (unarmorAll (lit "-----BEGIN A-----\nAQID\n-----BEGIN B-----\nBAUG\n-----END B-----\n")).items = [("A".toList, [], [1, 2, 3])] ∧
    (unarmorAll (lit "-----BEGIN A-----\nAQID\n-----BEGIN B-----\nBAUG\n-----END B-----\n")).result = .ok () :=
  ⟨rfl, rfl⟩

end Asn1.Pem
