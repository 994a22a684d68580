import Verif.Proofs.CodegenParse
/-! # Which texts of codes and provisions are read as what -/
set_option autoImplicit false
namespace Amqp.Codegen

/-! ## Splitting -/

theorem splitOn_ne_nil (sep : Char) : ∀ s : List Char, splitOn sep s ≠ []
  | [] => by simp [splitOn]
  | ch :: t => by
    unfold splitOn
    split
    · simp
    · split <;> simp

theorem joined_splitOn (sep : Char) : ∀ s : List Char, Spec.joined sep (splitOn sep s) = s
  | [] => rfl
  | ch :: t => by
    have ih := joined_splitOn sep t
    unfold splitOn
    by_cases h : ch = sep
    · rw [if_pos h, h]
      cases e : splitOn sep t with
      | nil => exact absurd e (splitOn_ne_nil sep t)
      | cons w ws =>
        rw [e] at ih
        simp only [Spec.joined, List.nil_append, List.flatMap_cons] at ih ⊢
        rw [List.cons_append, ih]
    · rw [if_neg h]
      cases e : splitOn sep t with
      | nil => exact absurd e (splitOn_ne_nil sep t)
      | cons w ws =>
        rw [e] at ih
        simp only [Spec.joined] at ih ⊢
        rw [List.cons_append, ih]

theorem splitOn_joined {sep : Char} : ∀ {ws : List (List Char)}, ws ≠ [] → (∀ w ∈ ws, sep ∉ w) →
    splitOn sep (Spec.joined sep ws) = ws
  | [], h, _ => absurd rfl h
  | [w], _, h => by
    simp only [Spec.joined, List.flatMap_nil, List.append_nil]
    exact splitOn_none (h w List.mem_cons_self)
  | w :: v :: ws, _, h => by
    have ih := splitOn_joined (sep := sep) (ws := v :: ws) (by simp)
      fun x hx => h x (List.mem_cons_of_mem _ hx)
    have e : Spec.joined sep (w :: v :: ws) = w ++ sep :: Spec.joined sep (v :: ws) := by
      simp [Spec.joined]
    rw [e, splitOn_append _ (h w List.mem_cons_self), ih]

theorem splitOn_mem {sep : Char} : ∀ {s : List Char}, ∀ w ∈ splitOn sep s, sep ∉ w
  | [], w, h => by
    simp only [splitOn, List.mem_singleton] at h
    subst h; simp
  | ch :: t, w, h => by
    have ih := @splitOn_mem sep t
    unfold splitOn at h
    by_cases hc : ch = sep
    · rw [if_pos hc] at h
      rcases List.mem_cons.1 h with rfl | h
      · simp
      · exact ih w h
    · rw [if_neg hc] at h
      cases e : splitOn sep t with
      | nil => exact absurd e (splitOn_ne_nil sep t)
      | cons v vs =>
        rw [e] at h ih
        rcases List.mem_cons.1 h with rfl | h
        · intro hm
          rcases List.mem_cons.1 hm with hm | hm
          · exact hc hm.symm
          · exact ih v List.mem_cons_self hm
        · exact ih w (List.mem_cons_of_mem _ h)

/-! ## Hexadecimal numbers -/

theorem hexDigit_iff {ch : Char} {d : Nat} : hexDigit ch = some d ↔ Spec.DigitOf d ch := by
  constructor
  · intro h
    have hk : ch.toNat < 103 := by
      unfold hexDigit at h
      have e1 : ∀ c : Char, c ≤ 'f' → c.toNat < 103 := fun c hc => by
        have : c.val ≤ 'f'.val := hc
        have := UInt32.le_iff_toNat_le.1 this
        have e : ('f'.val).toNat = 102 := rfl
        show c.val.toNat < 103
        omega
      split at h
      · rename_i h1; exact e1 ch (Char.le_trans h1.2 (by decide))
      · split at h
        · rename_i h1; exact e1 ch h1.2
        · split at h
          · rename_i h1; exact e1 ch (Char.le_trans h1.2 (by decide))
          · cases h
    have key : ∀ k < 103, ∀ d', hexDigit (Char.ofNat k) = some d' →
        "0123456789abcdef".toList[d']? = some (Char.ofNat k) ∨
          "0123456789ABCDEF".toList[d']? = some (Char.ofNat k) := by
      intro k hk d' hd'
      have : ∀ k < 103, (match hexDigit (Char.ofNat k) with
        | none => true
        | some d' => "0123456789abcdef".toList[d']? == some (Char.ofNat k) ||
          "0123456789ABCDEF".toList[d']? == some (Char.ofNat k)) = true := by decide +kernel
      have := this k hk
      rw [hd'] at this
      simpa using this
    have e := Char.ofNat_toNat ch
    have := key ch.toNat hk d (by rw [e]; exact h)
    rwa [e] at this
  · intro h
    have hd : d < 16 := by
      rcases h with h | h
      · have := (List.getElem?_eq_some_iff.1 h).1; simpa using this
      · have := (List.getElem?_eq_some_iff.1 h).1; simpa using this
    have key : ∀ d < 16, (("0123456789abcdef".toList[d]?.bind hexDigit) = some d) ∧
        (("0123456789ABCDEF".toList[d]?.bind hexDigit) = some d) := by decide +kernel
    rcases h with h | h
    · have := (key d hd).1; rwa [h] at this
    · have := (key d hd).2; rwa [h] at this

theorem hex_iff {s : List Char} {n : Nat} : Spec.Hex n s ↔ s ≠ [] ∧ hexDigits 0 s = some n := by
  constructor
  · intro h
    induction h with
    | one h => exact ⟨by simp, by simp [hexDigits, hexDigit_iff.2 h]⟩
    | more _ h ih =>
      refine ⟨by simp, ?_⟩
      rw [hexDigits_append, ih.2]
      simp [hexDigits, hexDigit_iff.2 h]
  · rintro ⟨h1, h2⟩
    have : ∀ (k : Nat) (s : List Char), s.length = k → s ≠ [] → ∀ n, hexDigits 0 s = some n →
        Spec.Hex n s := by
      intro k
      induction k with
      | zero => intro s hl hs; exact absurd (List.length_eq_zero_iff.1 hl) hs
      | succ k ih =>
        intro s hl hs n hn
        have e := List.dropLast_concat_getLast hs
        rw [← e] at hn ⊢
        rw [hexDigits_append] at hn
        obtain ⟨m, hm, hn⟩ := Option.bind_eq_some_iff.1 hn
        simp only [hexDigits] at hn
        obtain ⟨d, hd, hn⟩ := Option.bind_eq_some_iff.1 hn
        injection hn with hn
        by_cases hk : s.dropLast = []
        · rw [hk] at hm
          injection hm with hm
          subst hm
          rw [hk, ← hn]
          simpa using Spec.Hex.one (hexDigit_iff.1 hd)
        · rw [← hn]
          exact .more (ih _ (by simp [hl]) hk m hm) (hexDigit_iff.1 hd)
    exact this _ s rfl h1 n h2

theorem Hex.plain {n : Nat} {s : List Char} (h : Spec.Hex n s) : ∀ c ∈ s, c ≠ ':' ∧ c ≠ '+' := by
  have key : ∀ {d : Nat} {ch : Char}, Spec.DigitOf d ch → ch ≠ ':' ∧ ch ≠ '+' := by
    intro d ch h
    have := hexDigit_iff.2 h
    constructor
    · intro e; subst e; rw [show hexDigit ':' = none by decide] at this; cases this
    · intro e; subst e; rw [show hexDigit '+' = none by decide] at this; cases this
  induction h with
  | one h =>
    intro c hc
    rw [List.mem_singleton.1 hc]
    exact key h
  | more _ h ih =>
    intro c hc
    rcases List.mem_append.1 hc with hc | hc
    · exact ih c hc
    · rw [List.mem_singleton.1 hc]; exact key h

theorem parseHex32_iff {s : List Char} {n : Nat} : parseHex32 s = some n ↔
    n < 2 ^ 32 ∧ ∃ digits, Spec.Hex n digits ∧ (s = digits ∨ s = '+' :: digits) := by
  have main : ∀ digits : List Char,
      (if digits = [] then none else
        (hexDigits 0 digits).bind fun n => if n < 2 ^ 32 then some n else none) = some n ↔
      n < 2 ^ 32 ∧ Spec.Hex n digits := by
    intro digits
    rw [hex_iff]
    by_cases h : digits = []
    · rw [if_pos h]; simp [h]
    · rw [if_neg h, Option.bind_eq_some_iff]
      constructor
      · rintro ⟨m, h1, h2⟩
        split at h2
        · rename_i hlt
          injection h2 with h2
          subst h2
          exact ⟨hlt, h, h1⟩
        · cases h2
      · rintro ⟨h1, _, h2⟩
        exact ⟨n, h2, if_pos h1⟩
  unfold parseHex32
  split
  · rename_i t
    simp only [main]
    constructor
    · rintro ⟨h1, h2⟩; exact ⟨h1, t, h2, Or.inr rfl⟩
    · rintro ⟨h1, digits, h2, h3 | h3⟩
      · exact absurd rfl ((Hex.plain h2 '+' (by rw [← h3]; exact List.mem_cons_self)).2)
      · injection h3 with _ h3
        subst h3
        exact ⟨h1, h2⟩
  · rename_i hs
    simp only [main]
    constructor
    · rintro ⟨h1, h2⟩; exact ⟨h1, s, h2, Or.inl rfl⟩
    · rintro ⟨h1, digits, h2, h3 | h3⟩
      · subst h3; exact ⟨h1, h2⟩
      · exact absurd h3 (hs digits)

theorem codePart_iff {s : List Char} {n : Nat} : codePart s = .ok n ↔ Spec.Part n s := by
  unfold Spec.Part
  constructor
  · intro h
    unfold codePart at h
    split at h
    · rename_i t
      split at h
      · rename_i m hm
        injection h with h
        subst h
        obtain ⟨h1, digits, h2, h3⟩ := parseHex32_iff.1 hm
        refine ⟨h1, digits, h2, ?_⟩
        rcases h3 with rfl | rfl
        · exact Or.inl rfl
        · exact Or.inr rfl
      · cases h
    · cases h
  · rintro ⟨h1, digits, h2, rfl | rfl⟩
    · have := parseHex32_iff.2 ⟨h1, digits, h2, Or.inl rfl⟩
      simp [codePart, this]
    · have := parseHex32_iff.2 ⟨h1, digits, h2, Or.inr rfl⟩
      simp [codePart, this]

theorem Part.plain {n : Nat} {s : List Char} (h : Spec.Part n s) : ':' ∉ s := by
  obtain ⟨_, digits, h, rfl | rfl⟩ := h <;> intro hm
  · simp only [List.mem_cons] at hm
    rcases hm with hm | hm | hm
    · cases hm
    · cases hm
    · exact (Hex.plain h _ hm).1 rfl
  · simp only [List.mem_cons] at hm
    rcases hm with hm | hm | hm | hm
    · cases hm
    · cases hm
    · cases hm
    · exact (Hex.plain h _ hm).1 rfl

theorem mapM_ok_of {α β : Type} {f : α → Gen β} : ∀ {l : List α}, (∀ a ∈ l, ∃ b, f a = .ok b) →
    ∃ bs, l.mapM f = .ok bs
  | [], _ => ⟨[], rfl⟩
  | a :: l, h => by
    obtain ⟨b, hb⟩ := h a List.mem_cons_self
    obtain ⟨bs, hbs⟩ := mapM_ok_of fun x hx => h x (List.mem_cons_of_mem _ hx)
    exact ⟨b :: bs, Gen.mapM_cons_ok.2 ⟨b, bs, hb, hbs, rfl⟩⟩

theorem mapM_ok_mem {α β : Type} {f : α → Gen β} : ∀ {l : List α} {bs : List β},
    l.mapM f = .ok bs → ∀ a ∈ l, ∃ b, f a = .ok b
  | [], _, _, a, h => by simp at h
  | c :: l, bs, e, a, h => by
    obtain ⟨b, bs', h1, h2, rfl⟩ := Gen.mapM_cons_ok.1 e
    rcases List.mem_cons.1 h with rfl | h
    · exact ⟨b, h1⟩
    · exact mapM_ok_mem h2 a h

theorem from_iff {d : RawDescriptor} {g : GDescriptor} : GDescriptor.from d = .ok g ↔
    g.name = d.name ∧ Spec.Code g.domain g.code d.code.toList := by
  unfold GDescriptor.from
  rw [Gen.bind_eq_ok]
  constructor
  · rintro ⟨ns, h1, h2⟩
    match ns, h2 with
    | domain :: code :: ms, h2 =>
      injection h2 with h2
      subst h2
      refine ⟨rfl, ?_⟩
      have hj := joined_splitOn ':' d.code.toList
      match e : splitOn ':' d.code.toList with
      | [] => exact absurd e (splitOn_ne_nil _ _)
      | a :: r =>
        rw [e] at h1 hj
        obtain ⟨x, xs, ha, h1, e2⟩ := Gen.mapM_cons_ok.1 h1
        match r, h1 with
        | [], h1 =>
          injection h1 with h1
          subst h1
          cases e2
        | b :: rest, h1 =>
          obtain ⟨y, ys, hb, h5, e3⟩ := Gen.mapM_cons_ok.1 h1
          subst e3
          injection e2 with e2 e3
          injection e3 with e3 e4
          subst e2 e3 e4
          refine ⟨a, b, rest, codePart_iff.1 ha, codePart_iff.1 hb, fun r hr => ?_, hj.symm⟩
          obtain ⟨n, hn⟩ := mapM_ok_mem h5 r hr
          exact ⟨n, codePart_iff.1 hn⟩
    | [_], h2 => cases h2
    | [], h2 => cases h2
  · rintro ⟨h1, a, b, rest, ha, hb, hr, h2⟩
    obtain ⟨ns, hns⟩ := mapM_ok_of (f := codePart) (l := rest) fun r h => by
      obtain ⟨n, hn⟩ := hr r h
      exact ⟨n, codePart_iff.2 hn⟩
    refine ⟨g.domain :: g.code :: ns, ?_, ?_⟩
    · rw [h2, splitOn_joined (by simp)]
      · exact Gen.mapM_cons_ok.2 ⟨_, _, codePart_iff.2 ha,
          Gen.mapM_cons_ok.2 ⟨_, _, codePart_iff.2 hb, hns, rfl⟩, rfl⟩
      · intro w hw
        rcases List.mem_cons.1 hw with rfl | hw
        · exact Part.plain ha
        · rcases List.mem_cons.1 hw with rfl | hw
          · exact Part.plain hb
          · obtain ⟨n, hn⟩ := hr w hw
            exact Part.plain hn
    · rw [← h1]; rfl

/-! ## Provisions -/

theorem dropWhile_all {α : Type} {p : α → Bool} : ∀ {l t : List α}, (∀ c ∈ l, p c = true) →
    (∀ c, t.head? = some c → p c = false) → (l ++ t).dropWhile p = t
  | [], [], _, _ => rfl
  | [], a :: t, _, h => by simp [h a rfl]
  | a :: l, t, h, h' => by
    rw [List.cons_append, List.dropWhile_cons, h a List.mem_cons_self]
    exact dropWhile_all (fun c hc => h c (List.mem_cons_of_mem _ hc)) h'

theorem trim_padded {s n : List Char} (h : Spec.Padded s n) : trim s = n := by
  obtain ⟨l, r, rfl, h1, h2, h3, h4⟩ := h
  unfold trim
  by_cases hn : n = []
  · subst hn
    have : (l ++ [] ++ r).dropWhile Char.isWhitespace = [] := by
      rw [List.append_nil, ← List.append_nil (l ++ r)]
      refine dropWhile_all (fun c hc => ?_) (by simp)
      rcases List.mem_append.1 hc with hc | hc
      · exact h1 c hc
      · exact h2 c hc
    rw [this]; rfl
  · have e : (l ++ n ++ r).dropWhile Char.isWhitespace = n ++ r := by
      rw [List.append_assoc]
      refine dropWhile_all h1 fun c hc => h3 c ?_
      cases n with
      | nil => exact absurd rfl hn
      | cons a n => exact hc
    rw [e, List.reverse_append, dropWhile_all, List.reverse_reverse]
    · intro c hc; exact h2 c (List.mem_reverse.1 hc)
    · intro c hc
      rw [List.head?_reverse] at hc
      exact h4 c hc

theorem parseProvides_joined {ps : List (List Char × List Char)} (h : ps ≠ [])
    (hp : ∀ p ∈ ps, Spec.Padded p.1 p.2 ∧ ',' ∉ p.1) :
    parseProvides (some (.ofList (Spec.joined ',' (ps.map Prod.fst)))) =
      ((ps.map Prod.snd).filter (· ≠ [])).map fun n => .ofList (camelCase n) := by
  simp only [parseProvides, String.toList_ofList]
  rw [splitOn_joined (by simpa using h)]
  · have e : (ps.map Prod.fst).map trim = ps.map Prod.snd := by
      rw [List.map_map]
      exact List.map_congr_left fun p hm => trim_padded (hp p hm).1
    rw [e]
    generalize ps.map Prod.snd = ns
    induction ns with
    | nil => rfl
    | cons n ns ih =>
      by_cases hn : n = []
      · simp only [List.filterMap_cons, hn, ↓reduceIte]
        rw [ih]
        simp
      · simp only [List.filterMap_cons, hn, ↓reduceIte]
        rw [ih]
        simp [hn]
  · intro w hw
    obtain ⟨p, hm, rfl⟩ := List.mem_map.1 hw
    exact (hp p hm).2

end Amqp.Codegen
