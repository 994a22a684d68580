import Verif.Codegen.Names
import Verif.Spec.Names
/-!
# The identifiers made of names
-/
set_option autoImplicit false
namespace Amqp.Codegen
open Spec

/-! ## Characters -/

theorem forall_lower {P : Char → Prop} (h : ∀ n < 123, 97 ≤ n → P (Char.ofNat n)) {c : Char}
    (hc : Lower c) : P c := by
  have := h c.toNat (by have := hc.2; omega) hc.1
  rwa [Char.ofNat_toNat] at this

theorem forall_digit {P : Char → Prop} (h : ∀ n < 58, 48 ≤ n → P (Char.ofNat n)) {c : Char}
    (hc : Digit c) : P c := by
  have := h c.toNat (by have := hc.2; omega) hc.1
  rwa [Char.ofNat_toNat] at this

/-- A character of a word. -/
def Inner (c : Char) : Prop := Lower c ∨ Digit c

theorem _root_.Amqp.Spec.Lower.separator {c : Char} (h : Lower c) : Codegen.separator c = false :=
  forall_lower (P := fun c => Codegen.separator c = false) (by decide) h
theorem _root_.Amqp.Spec.Lower.isUpper {c : Char} (h : Lower c) : c.isUpper = false :=
  forall_lower (P := fun c => c.isUpper = false) (by decide) h
theorem _root_.Amqp.Spec.Lower.toUpper {c : Char} (h : Lower c) : c.toUpper = Char.ofNat (c.toNat - 32) :=
  forall_lower (P := fun c => c.toUpper = Char.ofNat (c.toNat - 32)) (by decide) h
theorem _root_.Amqp.Spec.Lower.toUpper_isUpper {c : Char} (h : Lower c) :
    (Char.ofNat (c.toNat - 32)).isUpper = true :=
  forall_lower (P := fun c => (Char.ofNat (c.toNat - 32)).isUpper = true) (by decide) h
theorem _root_.Amqp.Spec.Lower.toUpper_separator {c : Char} (h : Lower c) :
    Codegen.separator (Char.ofNat (c.toNat - 32)) = false :=
  forall_lower (P := fun c => Codegen.separator (Char.ofNat (c.toNat - 32)) = false) (by decide) h
theorem _root_.Amqp.Spec.Lower.toUpper_toLower {c : Char} (h : Lower c) :
    (Char.ofNat (c.toNat - 32)).toLower = c :=
  forall_lower (P := fun c => (Char.ofNat (c.toNat - 32)).toLower = c) (by decide) h
theorem _root_.Amqp.Spec.Lower.upper {c : Char} (h : Lower c) : Upper (Char.ofNat (c.toNat - 32)) :=
  forall_lower (P := fun c => Upper (Char.ofNat (c.toNat - 32)))
    (by unfold Upper; decide) h

theorem Inner.separator {c : Char} (h : Inner c) : Codegen.separator c = false :=
  h.elim (·.separator) (forall_digit (P := fun c => Codegen.separator c = false) (by decide))
theorem Inner.isUpper {c : Char} (h : Inner c) : c.isUpper = false :=
  h.elim (·.isUpper) (forall_digit (P := fun c => c.isUpper = false) (by decide))
theorem Inner.ne_hyphen {c : Char} (h : Inner c) : c ≠ '-' := by
  rintro rfl; exact absurd h.separator (by decide)
theorem Inner.ne_underscore {c : Char} (h : Inner c) : c ≠ '_' := by
  rintro rfl; exact absurd h.separator (by decide)

theorem separator_hyphen : separator '-' = true := rfl

/-! ## Camel case -/

theorem camelGo_inner : ∀ {t : List Char} (rest : List Char), (∀ c ∈ t, Inner c) →
    camelGo false (t ++ rest) = t ++ camelGo false rest
  | [], _, _ => rfl
  | c :: t, rest, h => by
    have hc := (h c List.mem_cons_self).separator
    simp only [List.cons_append, camelGo, hc]
    rw [camelGo_inner rest fun x hx => h x (List.mem_cons_of_mem _ hx)]
    rfl

theorem camelGo_word {w : List Char} (h : Word w) (rest : List Char) :
    camelGo true (w ++ rest) = capitalised w ++ camelGo false rest := by
  obtain ⟨c, t, rfl, hc, ht⟩ := h
  simp only [List.cons_append, camelGo, hc.separator, capitalised, hc.toUpper]
  rw [camelGo_inner rest ht]
  rfl

theorem camelCase_hyphenated : ∀ {ws : List (List Char)}, (∀ w ∈ ws, Word w) →
    camelCase (hyphenated ws) = (ws.map capitalised).flatten
  | [], _ => rfl
  | [w], h => by
    have := camelGo_word (h w List.mem_cons_self) []
    rw [List.append_nil] at this
    simpa [camelCase, hyphenated, camelGo] using this
  | w :: v :: ws, h => by
    have ih := camelCase_hyphenated (ws := v :: ws) fun x hx => h x (List.mem_cons_of_mem _ hx)
    show camelGo true (w ++ '-' :: hyphenated (v :: ws)) = _
    rw [camelGo_word (h w List.mem_cons_self)]
    have : camelGo false ('-' :: hyphenated (v :: ws)) = camelCase (hyphenated (v :: ws)) := rfl
    rw [this, ih]
    rfl

/-! Reading the words back. -/

/-- The words of a camel-case identifier: a word begins at each upper-case letter. -/
def unCamel : List Char → List (List Char)
  | [] => []
  | c :: t =>
    if c.isUpper then (c.toLower :: t.takeWhile (!·.isUpper)) :: unCamel t
    else unCamel t

theorem unCamel_inner : ∀ {t : List Char} (rest : List Char), (∀ c ∈ t, Inner c) →
    unCamel (t ++ rest) = unCamel rest
  | [], _, _ => rfl
  | c :: t, rest, h => by
    have hc := (h c List.mem_cons_self).isUpper
    simp only [List.cons_append, unCamel, hc]
    exact unCamel_inner rest fun x hx => h x (List.mem_cons_of_mem _ hx)

theorem takeWhile_inner {t : List Char} (rest : List Char) (h : ∀ c ∈ t, Inner c)
    (hr : ∀ c u, rest = c :: u → c.isUpper = true) :
    (t ++ rest).takeWhile (!·.isUpper) = t := by
  induction t with
  | nil =>
    cases rest with
    | nil => rfl
    | cons c u => simp [hr c u rfl]
  | cons c t ih =>
    have hc := (h c List.mem_cons_self).isUpper
    simp only [List.cons_append, List.takeWhile_cons, hc]
    simp only [Bool.not_false, if_true]
    rw [ih fun x hx => h x (List.mem_cons_of_mem _ hx)]

theorem camel_head : ∀ {ws : List (List Char)}, (∀ w ∈ ws, Word w) → ∀ (c : Char) (u : List Char),
    (ws.map capitalised).flatten = c :: u → c.isUpper = true
  | [], _, c, u, h => by simp at h
  | w :: ws, hw, c, u, h => by
    obtain ⟨d, t, rfl, hd, ht⟩ := hw w List.mem_cons_self
    simp only [List.map_cons, List.flatten_cons, capitalised, List.cons_append, List.cons.injEq] at h
    rw [← h.1]
    exact hd.toUpper_isUpper

theorem unCamel_flatten : ∀ {ws : List (List Char)}, (∀ w ∈ ws, Word w) →
    unCamel (ws.map capitalised).flatten = ws
  | [], _ => rfl
  | w :: ws, h => by
    have hr : ∀ x ∈ ws, Word x := fun x hx => h x (List.mem_cons_of_mem _ hx)
    have ih := unCamel_flatten hr
    have hh := camel_head hr
    obtain ⟨c, t, rfl, hc, ht⟩ := h w List.mem_cons_self
    simp only [List.map_cons, List.flatten_cons, capitalised, List.cons_append, unCamel,
      hc.toUpper_isUpper, if_true, hc.toUpper_toLower]
    rw [takeWhile_inner _ ht hh, unCamel_inner _ ht, ih]

theorem camelCase_injective {s t : List Char} (hs : Name s) (ht : Name t)
    (h : camelCase s = camelCase t) : s = t := by
  obtain ⟨ws, _, hw, rfl⟩ := hs
  obtain ⟨vs, _, hv, rfl⟩ := ht
  rw [camelCase_hyphenated hw, camelCase_hyphenated hv] at h
  rw [← unCamel_flatten hw, h, unCamel_flatten hv]

/-! ## Snake case -/

theorem snakeGo_inner : ∀ {t : List Char} (rest : List Char) (l : Bool), (∀ c ∈ t, Inner c) →
    snakeGo false l true (t ++ rest) = t ++ snakeGo false (if t = [] then l else false) true rest
  | [], rest, l, _ => rfl
  | c :: t, rest, l, h => by
    have hc := h c List.mem_cons_self
    have ih := snakeGo_inner rest false fun x hx => h x (List.mem_cons_of_mem _ hx)
    simp only [List.cons_append, snakeGo, hc.separator, hc.isUpper]
    simp only [Bool.and_false, Bool.or_false, Bool.false_eq_true, if_false]
    rw [ih]
    simp

/-- The names of fields: hyphens become underscores. -/
theorem snakeGo_hyphenated : ∀ {ws : List (List Char)} (l : Bool), (∀ w ∈ ws, Word w) →
    (∀ st, ws ≠ [] → snakeGo true l st (hyphenated ws) = '_' :: underscored ws) ∧
    snakeGo false l false (hyphenated ws) = underscored ws
  | [], _, _ => ⟨fun _ h => absurd rfl h, rfl⟩
  | [w], l, h => by
    obtain ⟨c, t, rfl, hc, ht⟩ := h w List.mem_cons_self
    have e := snakeGo_inner [] false ht
    rw [List.append_nil] at e
    have e2 : ∀ x, snakeGo false x true [] = [] := fun _ => rfl
    rw [e2, List.append_nil] at e
    constructor
    · intro st _
      simp only [hyphenated, underscored, snakeGo, hc.separator, hc.isUpper]
      simp [e]
    · simp only [hyphenated, underscored, snakeGo, hc.separator, hc.isUpper]
      simp [e]
  | w :: v :: ws, l, h => by
    have hr : ∀ x ∈ v :: ws, Word x := fun x hx => h x (List.mem_cons_of_mem _ hx)
    have ih := fun l => (snakeGo_hyphenated (ws := v :: ws) l hr).1 true (by simp)
    obtain ⟨c, t, rfl, hc, ht⟩ := h w List.mem_cons_self
    have e := snakeGo_inner ('-' :: hyphenated (v :: ws)) false ht
    have e2 : ∀ x, snakeGo false x true ('-' :: hyphenated (v :: ws)) =
        '_' :: underscored (v :: ws) := fun x => ih x
    rw [e2] at e
    constructor
    · intro st _
      simp only [hyphenated, underscored, List.cons_append, snakeGo, hc.separator, hc.isUpper]
      simp [e]
    · simp only [hyphenated, underscored, List.cons_append, snakeGo, hc.separator, hc.isUpper]
      simp [e]

/-- The names of functions, made of the names of types: the same again, if no word but the
last is a single letter. -/
theorem snakeGo_camel : ∀ {ws : List (List Char)} (l : Bool), (∀ w ∈ ws, Word w) →
    (∀ w ∈ ws.dropLast, 2 ≤ w.length) →
    (ws ≠ [] → snakeGo false false true (ws.map capitalised).flatten = '_' :: underscored ws) ∧
    snakeGo false l false (ws.map capitalised).flatten = underscored ws
  | [], _, _, _ => ⟨fun h => absurd rfl h, rfl⟩
  | [w], l, h, _ => by
    obtain ⟨c, t, rfl, hc, ht⟩ := h w List.mem_cons_self
    have e := snakeGo_inner [] true ht
    rw [List.append_nil] at e
    have e2 : ∀ x, snakeGo false x true [] = [] := fun _ => rfl
    rw [e2, List.append_nil] at e
    constructor
    · intro _
      simp only [List.map_cons, List.map_nil, List.flatten_cons, List.flatten_nil, List.append_nil,
        capitalised, underscored, snakeGo, hc.toUpper_separator, hc.toUpper_isUpper, hc.toUpper_toLower]
      simp [e]
    · simp only [List.map_cons, List.map_nil, List.flatten_cons, List.flatten_nil, List.append_nil,
        capitalised, underscored, snakeGo, hc.toUpper_separator, hc.toUpper_isUpper, hc.toUpper_toLower]
      simp [e]
  | w :: v :: ws, l, h, hl => by
    have hr : ∀ x ∈ v :: ws, Word x := fun x hx => h x (List.mem_cons_of_mem _ hx)
    have hl2 : ∀ x ∈ (v :: ws).dropLast, 2 ≤ x.length := fun x hx =>
      hl x (by rw [List.dropLast_cons_of_ne_nil (by simp)]; exact List.mem_cons_of_mem _ hx)
    have ih := (snakeGo_camel (ws := v :: ws) l hr hl2).1 (by simp)
    have h2 : 2 ≤ w.length := hl w (by
      rw [List.dropLast_cons_of_ne_nil (by simp)]; exact List.mem_cons_self)
    obtain ⟨c, t, rfl, hc, ht⟩ := h w List.mem_cons_self
    have ht0 : t ≠ [] := by rintro rfl; simp at h2
    have e := snakeGo_inner ((v :: ws).map capitalised).flatten true ht
    rw [if_neg ht0, ih] at e
    have eq : (((c :: t) :: v :: ws).map capitalised).flatten =
        Char.ofNat (c.toNat - 32) :: (t ++ ((v :: ws).map capitalised).flatten) := rfl
    rw [eq]
    constructor
    · intro _
      simp only [underscored, snakeGo, hc.toUpper_separator, hc.toUpper_isUpper, hc.toUpper_toLower,
        e]
      simp
    · simp only [underscored, snakeGo, hc.toUpper_separator, hc.toUpper_isUpper, hc.toUpper_toLower,
        e]
      simp

/-! ## Reading words back from underscores -/

theorem append_sep_inj {a : Char} : ∀ {s t u v : List Char}, (∀ c ∈ s, c ≠ a) → (∀ c ∈ t, c ≠ a) →
    s ++ a :: u = t ++ a :: v → s = t ∧ u = v
  | [], [], u, v, _, _, h => ⟨rfl, (List.cons.inj h).2⟩
  | [], c :: t, u, v, _, ht, h => absurd (List.cons.inj h).1.symm (ht c List.mem_cons_self)
  | c :: s, [], u, v, hs, _, h => absurd (List.cons.inj h).1 (hs c List.mem_cons_self)
  | c :: s, d :: t, u, v, hs, ht, h => by
    obtain ⟨h1, h2⟩ := List.cons.inj h
    obtain ⟨e1, e2⟩ := append_sep_inj (fun x hx => hs x (List.mem_cons_of_mem _ hx))
      (fun x hx => ht x (List.mem_cons_of_mem _ hx)) h2
    exact ⟨by rw [h1, e1], e2⟩

theorem _root_.Amqp.Spec.Word.inner {w : List Char} (h : Word w) : ∀ c ∈ w, Inner c := by
  obtain ⟨c, t, rfl, hc, ht⟩ := h
  intro x hx
  rcases List.mem_cons.1 hx with rfl | hx
  · exact Or.inl hc
  · exact ht x hx

theorem underscored_injective : ∀ {ws vs : List (List Char)}, ws ≠ [] → vs ≠ [] →
    (∀ w ∈ ws, Word w) → (∀ v ∈ vs, Word v) → underscored ws = underscored vs → ws = vs
  | [], _, h, _, _, _, _ => absurd rfl h
  | _, [], _, h, _, _, _ => absurd rfl h
  | [w], [v], _, _, _, _, h => by rw [show w = v from h]
  | [w], v :: v' :: vs, _, _, hw, _, h => by
    have h' : w = v ++ '_' :: underscored (v' :: vs) := h
    exact absurd rfl (((hw w List.mem_cons_self).inner '_' (by rw [h']; simp)).ne_underscore)
  | w :: w' :: ws, [v], _, _, _, hv, h => by
    have h' : w ++ '_' :: underscored (w' :: ws) = v := h
    exact absurd rfl (((hv v List.mem_cons_self).inner '_' (by rw [← h']; simp)).ne_underscore)
  | w :: w' :: ws, v :: v' :: vs, _, _, hw, hv, h => by
    obtain ⟨e1, e2⟩ := append_sep_inj (a := '_')
      (fun c hc => ((hw w List.mem_cons_self).inner c hc).ne_underscore)
      (fun c hc => ((hv v List.mem_cons_self).inner c hc).ne_underscore) h
    rw [e1, underscored_injective (by simp) (by simp)
      (fun x hx => hw x (List.mem_cons_of_mem _ hx))
      (fun x hx => hv x (List.mem_cons_of_mem _ hx)) e2]

/-! ## The identifiers of fields and functions -/

theorem underscored_chars : ∀ {ws : List (List Char)}, (∀ w ∈ ws, Word w) →
    ∀ c ∈ underscored ws, Inner c ∨ c = '_'
  | [], _, c, h => by simp [underscored] at h
  | [w], hw, c, h => Or.inl ((hw w List.mem_cons_self).inner c h)
  | w :: v :: ws, hw, c, h => by
    simp only [underscored, List.mem_append, List.mem_cons] at h
    rcases h with h | rfl | h
    · exact Or.inl ((hw w List.mem_cons_self).inner c h)
    · exact Or.inr rfl
    · exact underscored_chars (fun x hx => hw x (List.mem_cons_of_mem _ hx)) c h

theorem underscored_head : ∀ {ws : List (List Char)}, ws ≠ [] → (∀ w ∈ ws, Word w) →
    ∃ c t, underscored ws = c :: t ∧ Lower c
  | [], h, _ => absurd rfl h
  | [w], _, hw => by
    obtain ⟨c, t, rfl, hc, _⟩ := hw w List.mem_cons_self
    exact ⟨c, t, rfl, hc⟩
  | w :: v :: ws, _, hw => by
    obtain ⟨c, t, rfl, hc, _⟩ := hw w List.mem_cons_self
    exact ⟨c, _, rfl, hc⟩

theorem underscored_identifier {ws : List (List Char)} (h : ws ≠ []) (hw : ∀ w ∈ ws, Word w) :
    Identifier (underscored ws) := by
  obtain ⟨c, t, e, hc⟩ := underscored_head h hw
  refine ⟨c, t, e, Or.inl hc, fun x hx => ?_⟩
  rcases underscored_chars hw x (by rw [e]; exact List.mem_cons_of_mem _ hx) with (h | h) | h
  · exact Or.inl h
  · exact Or.inr (Or.inr (Or.inl h))
  · exact Or.inr (Or.inr (Or.inr h))

theorem capitalised_chars {w : List Char} (h : Word w) :
    ∀ c ∈ capitalised w, Lower c ∨ Upper c ∨ Digit c := by
  obtain ⟨c, t, rfl, hc, ht⟩ := h
  intro x hx
  rcases List.mem_cons.1 hx with rfl | hx
  · exact Or.inr (Or.inl hc.upper)
  · exact (ht x hx).elim Or.inl fun h => Or.inr (Or.inr h)

theorem camel_identifier {ws : List (List Char)} (h : ws ≠ []) (hw : ∀ w ∈ ws, Word w) :
    Identifier (ws.map capitalised).flatten ∧
      ∃ c t, (ws.map capitalised).flatten = c :: t ∧ Upper c := by
  obtain ⟨c, t, e, hc⟩ : ∃ c t, (ws.map capitalised).flatten = c :: t ∧ Upper c := by
    cases ws with
    | nil => exact absurd rfl h
    | cons w ws =>
      obtain ⟨d, t, rfl, hd, _⟩ := hw w List.mem_cons_self
      exact ⟨_, _, rfl, hd.upper⟩
  refine ⟨⟨c, t, e, Or.inr (Or.inl hc), fun x hx => ?_⟩, c, t, e, hc⟩
  have hx' : x ∈ (ws.map capitalised).flatten := by rw [e]; exact List.mem_cons_of_mem _ hx
  obtain ⟨l, hl, hxl⟩ := List.mem_flatten.1 hx'
  obtain ⟨w, hw', rfl⟩ := List.mem_map.1 hl
  rcases capitalised_chars (hw w hw') x hxl with h | h | h
  · exact Or.inl h
  · exact Or.inr (Or.inl h)
  · exact Or.inr (Or.inr (Or.inl h))

/-- The two names that would be keywords. -/
def Reserved (s : List Char) : Prop := s = "type".toList ∨ s = "return".toList

theorem snakeCase_reserved {s : List Char} (h : Reserved s) : snakeCase s = s ++ ['_'] := by
  rcases h with rfl | rfl <;> rfl

theorem snakeCase_free {s : List Char} (h : ¬ Reserved s) :
    snakeCase s = snakeGo false false false s := by
  unfold snakeCase
  rw [if_neg fun e => h (Or.inl e), if_neg fun e => h (Or.inr e)]

theorem snakeCase_hyphenated {ws : List (List Char)} (hw : ∀ w ∈ ws, Word w)
    (h : ¬ Reserved (hyphenated ws)) : snakeCase (hyphenated ws) = underscored ws := by
  rw [snakeCase_free h]
  exact (snakeGo_hyphenated false hw).2

theorem camel_not_reserved {ws : List (List Char)} (hw : ∀ w ∈ ws, Word w) :
    ¬ Reserved (ws.map capitalised).flatten := by
  intro h
  rcases h with h | h
  · exact absurd (camel_head hw _ _ h) (by decide)
  · exact absurd (camel_head hw _ _ h) (by decide)

theorem snakeCase_camelCase {ws : List (List Char)} (hw : ∀ w ∈ ws, Word w)
    (hl : ∀ w ∈ ws.dropLast, 2 ≤ w.length) :
    snakeCase (camelCase (hyphenated ws)) = underscored ws := by
  rw [camelCase_hyphenated hw, snakeCase_free (camel_not_reserved hw)]
  exact (snakeGo_camel false hw hl).2

theorem underscored_not_last : ∀ {ws : List (List Char)}, (∀ w ∈ ws, Word w) →
    ∀ s, underscored ws ≠ s ++ ['_']
  | [], _, s, h => by simp [underscored] at h
  | [w], hw, s, h => by
    have h' : w = s ++ ['_'] := h
    exact absurd rfl ((hw w List.mem_cons_self).inner '_' (by rw [h']; simp)).ne_underscore
  | w :: v :: ws, hw, s, h => by
    have hr : ∀ x ∈ v :: ws, Word x := fun x hx => hw x (List.mem_cons_of_mem _ hx)
    obtain ⟨c, t, e, hc⟩ := underscored_head (ws := v :: ws) (by simp) hr
    have hne : underscored (v :: ws) ≠ [] := by rw [e]; simp
    have h1 : (w ++ '_' :: underscored (v :: ws)).getLast? = some '_' := by
      rw [show w ++ '_' :: underscored (v :: ws) = s ++ ['_'] from h]; simp
    have h2 : (underscored (v :: ws)).getLast? = some '_' := by
      rw [show w ++ '_' :: underscored (v :: ws) = (w ++ ['_']) ++ underscored (v :: ws) by simp] at h1
      rw [List.getLast?_append, e] at h1
      rw [e]
      cases h3 : (c :: t).getLast? with
      | none => simp at h3
      | some x => rw [h3] at h1; exact h1
    obtain ⟨u, hu⟩ := List.getLast?_eq_some_iff.1 h2
    exact underscored_not_last hr u hu

theorem snakeCase_injective {s t : List Char} (hs : Name s) (ht : Name t)
    (h : snakeCase s = snakeCase t) : s = t := by
  obtain ⟨ws, hws, hw, rfl⟩ := hs
  obtain ⟨vs, hvs, hv, rfl⟩ := ht
  by_cases h1 : Reserved (hyphenated ws) <;> by_cases h2 : Reserved (hyphenated vs)
  · rw [snakeCase_reserved h1, snakeCase_reserved h2] at h
    exact List.append_cancel_right h
  · rw [snakeCase_reserved h1, snakeCase_hyphenated hv h2] at h
    exact absurd h.symm (underscored_not_last hv _)
  · rw [snakeCase_reserved h2, snakeCase_hyphenated hw h1] at h
    exact absurd h (underscored_not_last hw _)
  · rw [snakeCase_hyphenated hw h1, snakeCase_hyphenated hv h2] at h
    rw [underscored_injective hws hvs hw hv h]

end Amqp.Codegen
