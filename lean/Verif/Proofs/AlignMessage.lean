import Verif.Proofs.AlignTypes
import Verif.Proofs.LenientLists
/-!
# Which legal messages are read

A section ends in the same place whether or not it is read as what it is, so the sections
that are read are those that were written.
-/
set_option autoImplicit false
namespace Amqp
open Dec Standard

/-! ## Where values end -/

/-- What the first byte of a value tells. -/
inductive Lead where
  | scalar | list | map | described
deriving DecidableEq

def leadOf (c : UInt8) : Lead :=
  if c = 0 then .described
  else if c = 0x45 ∨ c = 0xc0 ∨ c = 0xd0 then .list
  else if c = 0xc1 ∨ c = 0xd1 then .map
  else .scalar

def Leads (k : Lead) (u : Bytes) : Prop := ∃ c t, u = c :: t ∧ leadOf c = k

theorem Leads.same {k k' : Lead} {u u' r r' : Bytes} (h : Leads k u) (h' : Leads k' u')
    (e : u ++ r = u' ++ r') : k = k' := by
  obtain ⟨c, t, rfl, rfl⟩ := h
  obtain ⟨c', t', rfl, rfl⟩ := h'
  injection e with e _
  rw [e]

theorem leads_prim {v : Variant} {u : Bytes} (h : Prim v u) : Leads .scalar u := by
  cases h with
  | binary h | string h | symbol h => cases h <;> exact ⟨_, _, rfl, by decide⟩
  | _ => exact ⟨_, _, rfl, by decide⟩

theorem leads_scalar {v : Variant} {u : Bytes} (h : Lenient.Scalar v u) : Leads .scalar u := by
  cases h with
  | prim h => exact leads_prim h
  | @boolean x _ h =>
    cases h with
    | short => cases x <;> exact ⟨_, _, rfl, by decide⟩
    | byte => exact ⟨_, _, rfl, by decide⟩
  | symbol h => cases h with | mk h _ => cases h <;> exact ⟨_, _, rfl, by decide⟩
  | timestamp h => cases h <;> exact ⟨_, _, rfl, by decide⟩

theorem leads_list {env : Env} {L : Rep Variant} {l : List Variant} {u : Bytes}
    (h : Lenient.list env L l u) : Leads .list u := by
  cases h with
  | empty => exact ⟨_, _, rfl, by decide⟩
  | mk _ h _ => cases h with | mk h _ _ _ => cases h <;> exact ⟨_, _, rfl, by decide⟩

theorem leads_map {env : Env} {K V : Type} [HKey K] {LK : Rep K} {LV : Rep V} {l : List (K × V)} {u : Bytes}
    (h : Lenient.map env LK LV l u) : Leads .map u := by
  cases h with
  | mk _ _ h _ _ => cases h with | mk h _ _ _ => cases h <;> exact ⟨_, _, rfl, by decide⟩

/-- A legal encoding ends where it is taken to end, whatever it is read as. -/
def EndsAlike {α : Type} (A L : Rep α) : Prop :=
  ∀ x x' u u' r r', A x u → L x' u' → u ++ r = u' ++ r' → u = u'

/-- The same for one encoding of a value. -/
def EndsAt (env : Env) (u : Bytes) : Prop :=
  ∀ n v' u' r r', Lenient.nested env n v' u' → u ++ r = u' ++ r' → u = u'

theorem ends_items {env : Env} {n : Nat} : ∀ {items items' : List (Variant × Bytes)} {r r' : Bytes},
    (∀ p ∈ items, EndsAt env p.2) → (∀ p ∈ items', Lenient.nested env n p.1 p.2) →
    items.length = items'.length →
    items.flatMap Prod.snd ++ r = items'.flatMap Prod.snd ++ r' →
    items.flatMap Prod.snd = items'.flatMap Prod.snd
  | [], [], _, _, _, _, _, _ => rfl
  | p :: t, q :: t', r, r', h1, h2, h3, h4 => by
    simp only [List.flatMap_cons, List.append_assoc] at h4 ⊢
    have e1 := h1 p List.mem_cons_self n _ _ _ _ (h2 q List.mem_cons_self) h4
    rw [e1] at h4
    rw [e1, ends_items (fun x hx => h1 x (List.mem_cons_of_mem _ hx))
      (fun x hx => h2 x (List.mem_cons_of_mem _ hx)) (Nat.succ.inj h3) (List.append_cancel_left h4)]

theorem map_ends {env : Env} {K V K' V' : Type} [HKey K'] {LK : Rep K'} {LV : Rep V'}
    {items : List ((K × Bytes) × (V × Bytes))} {c : UInt8} {w : Nat} {s n : Bytes}
    {l : List (K' × V')} {u' r r' : Bytes} (g1 : Sized 0xc1 0xd1 c w)
    (g2 : Num w s (w + (items.flatMap fun p => p.1.2 ++ p.2.2).length)) {cnt : Nat} (g3 : Num w n cnt)
    (h' : Lenient.map env LK LV l u')
    (e : c :: (s ++ n ++ items.flatMap fun p => p.1.2 ++ p.2.2) ++ r = u' ++ r') :
    c :: (s ++ n ++ items.flatMap fun p => p.1.2 ++ p.2.2) = u' := by
  cases h' with
  | mk items' ignored hh _ _ =>
    simp only [List.cons_append, List.append_assoc] at e
    obtain ⟨e1, e2, e3, -⟩ := header_align (by decide) g1 g2 g3 hh
      (by simpa only [List.append_assoc] using e)
    rw [← List.append_assoc] at e2
    obtain ⟨e4, -⟩ := List.append_inj e2 e3.symm
    rw [← e1, ← e4]
    simp only [List.cons_append, List.append_assoc]

theorem endsAt_wire (env : Env) {v : Variant} {u : Bytes} (h : Wire .amqp v u) : EndsAt env u := by
  induction h with
  | @prim v u h =>
    intro n v' u' r r' hl e
    cases n with
    | zero => exact hl.elim
    | succ n =>
      cases hl with
      | scalar hs => exact (skips_unique (skips_prim h) (skips_scalar hs) e).1
      | list hl => cases (leads_prim h).same (leads_list hl) e
      | map hl => cases (leads_prim h).same (leads_map hl) e
      | described _ _ => cases (leads_prim h).same ⟨_, _, rfl, rfl⟩ e
  | @timestamp t m b h1 h2 h3 =>
    intro n v' u' r r' hl e
    have hk : Leads .scalar (0x83 :: b) := ⟨_, _, rfl, by decide⟩
    cases n with
    | zero => exact hl.elim
    | succ n =>
      cases hl with
      | scalar hs => exact (skips_unique (skips_snum h1 (by decide) fun t => rfl) (skips_scalar hs) e).1
      | list hl => cases hk.same (leads_list hl) e
      | map hl => cases hk.same (leads_map hl) e
      | described _ _ => cases hk.same ⟨_, _, rfl, rfl⟩ e
  | list0 =>
    intro n v' u' r r' hl e
    have hk : Leads .list [0x45] := ⟨_, _, rfl, by decide⟩
    cases n with
    | zero => exact hl.elim
    | succ n =>
      cases hl with
      | scalar hs => cases hk.same (leads_scalar hs) e
      | list hl =>
        cases hl with
        | empty => rfl
        | mk items hh _ =>
          cases hh with
          | mk g1 _ _ _ =>
            simp only [List.cons_append] at e
            injection e with e _
            subst e
            cases g1
      | map hl => cases hk.same (leads_map hl) e
      | described _ _ => cases hk.same ⟨_, _, rfl, rfl⟩ e
  | @list items c w s n' g1 g2 g3 g4 ih =>
    intro n v' u' r r' hl e
    have hk : Leads .list (c :: (s ++ n' ++ items.flatMap Prod.snd)) :=
      ⟨_, _, rfl, by cases g1 <;> decide⟩
    cases n with
    | zero => exact hl.elim
    | succ n =>
      cases hl with
      | scalar hs => cases hk.same (leads_scalar hs) e
      | list hl =>
        cases hl with
        | empty =>
          simp only [List.cons_append] at e
          injection e with e _
          subst e
          cases g1
        | mk items' hh hi =>
          simp only [List.cons_append, List.append_assoc] at e
          obtain ⟨e1, e2, -, e3⟩ := header_align (by decide) g1 g2 g3 hh
            (by simpa only [List.append_assoc] using e)
          rw [← e1, ends_items ih hi e3.symm e2]; rfl
      | map hl => cases hk.same (leads_map hl) e
      | described _ _ => cases hk.same ⟨_, _, rfl, rfl⟩ e
  | @map items c w s n' g1 g2 g3 g4 g5 g6 g7 ih1 ih2 =>
    intro n v' u' r r' hl e
    have hk : Leads .map (c :: (s ++ n' ++ items.flatMap fun p => p.1.2 ++ p.2.2)) :=
      ⟨_, _, rfl, by cases g1 <;> decide⟩
    cases n with
    | zero => exact hl.elim
    | succ n =>
      cases hl with
      | scalar hs => cases hk.same (leads_scalar hs) e
      | list hl => cases hk.same (leads_list hl) e
      | map hl => exact map_ends g1 g2 g3 hl e
      | described _ _ => cases hk.same ⟨_, _, rfl, rfl⟩ e
  | @described d v db b hd _ ih =>
    intro n v' u' r r' hl e
    have hk : Leads .described (0x00 :: (db ++ b)) := ⟨_, _, rfl, rfl⟩
    cases n with
    | zero => exact hl.elim
    | succ n =>
      cases hl with
      | scalar hs => cases hk.same (leads_scalar hs) e
      | list hl => cases hk.same (leads_list hl) e
      | map hl => cases hk.same (leads_map hl) e
      | @described _ _ db' b' hd' hv =>
        simp only [List.cons_append, List.append_assoc, List.cons.injEq, true_and] at e
        have hs : Skips db := by cases d <;> exact skips_prim hd
        obtain ⟨e1, e2⟩ := skips_unique hs (skips_lenient_descriptor hd') e
        rw [e1, ih n _ _ _ _ hv e2]

section
variable {env : Env}

theorem ends_any : EndsAlike Scope.all.any (Scope.lenient env).any := fun _ _ _ u' r r' h h' e =>
  endsAt_wire env h.1 env.stackDepth _ u' r r' h' e
theorem ends_list : EndsAlike Scope.all.list (Scope.lenient env).list := fun _ x' _ u' r r' h h' e =>
  endsAt_wire env h.1 (env.stackDepth + 1) (.list x'.items) u' r r' (.list h') e
theorem ends_wireMap {K V : Type} [HKey K] {AK LK : Rep K} {AV LV : Rep V} {l l' : List (K × V)}
    {u u' r r' : Bytes} (h : WireMap AK AV l u) (h' : Lenient.map env LK LV l' u')
    (e : u ++ r = u' ++ r') : u = u' := by
  cases h with
  | mk items g1 g2 g3 _ _ => exact map_ends g1 g2 g3 h' e
theorem ends_annotations : EndsAlike Scope.all.annotations (Scope.lenient env).annotations :=
  fun _ _ _ _ _ _ h h' e => ends_wireMap h h' e
theorem ends_stringMap : EndsAlike Scope.all.stringMap (Scope.lenient env).stringMap :=
  fun _ _ _ _ _ _ h h' e => ends_wireMap h h' e
theorem ends_binary : EndsAlike binary binary := fun _ _ _ _ _ _ h h' e =>
  (skips_unique (skips_prim h) (skips_prim h') e).1

theorem ends_fieldList {α : Type} {as ls : α → List Slot} :
    EndsAlike (fun x => FieldList (as x)) (fun x => Lenient.fieldList env (ls x)) := fun x x' u u' r r' h1 h2 e => by
  cases h1 with
  | empty hf =>
    cases h2 with
    | empty hl => rfl
    | list hh _ =>
      cases hh with
      | mk g1 _ _ _ =>
        simp only [List.cons_append] at e
        injection e with e _
        subst e
        cases g1
  | list items g1 g2 g3 hf =>
    cases h2 with
    | empty _ =>
      simp only [List.cons_append] at e
      injection e with e _
      subst e
      cases g1
    | list hh hl =>
      simp only [List.cons_append, List.append_assoc] at e
      obtain ⟨e1, e2, e3, -⟩ := header_align (by decide) g1 g2 g3 hh
        (by simpa only [List.append_assoc] using e)
      obtain ⟨e5, _⟩ := List.append_inj e2 e3.symm
      rw [← e1, ← e5]; rfl

/-! ## Which section it is -/

theorem prim_same {v v' : Variant} {b : Bytes} (h : Prim v b) (h' : Prim v' b) : v = v' := by
  have d (w : Variant) (hw : Prim w b) : decode Variant debugEnv b = .ok ([], w) :=
    (accepts_variant _ _ _).2 ⟨b, by simp, .scalar (.prim hw)⟩
  have := (d v h).symm.trans (d v' h')
  injection this with this
  injection this

theorem desc_same {c c' : UInt64} {n n' : String} {b : Bytes} (h : Desc c n b) (h' : Desc c' n' b) :
    c = c' ∨ RStr.lit n = RStr.lit n' := by
  cases h with
  | code h =>
    cases h' with
    | code h' => cases prim_same h h'; exact .inl rfl
    | name h' => cases prim_same h h'
  | name h =>
    cases h' with
    | code h' => cases prim_same h h'
    | name h' =>
      have := prim_same h h'
      injection this with this
      injection this with this
      exact .inr this

theorem described_apart {c c' : UInt64} {n n' : String} {P Q : Bytes → Prop} {u u' r r' : Bytes}
    (hc : c ≠ c') (hn : RStr.lit n ≠ RStr.lit n') (h : described c n P u) (h' : described c' n' Q u')
    (e : u ++ r = u' ++ r') : False := by
  obtain ⟨db, x, hd, -, rfl⟩ := h
  obtain ⟨db', x', hd', -, rfl⟩ := h'
  simp only [List.cons_append, List.append_assoc, List.cons.injEq, true_and] at e
  obtain ⟨e1, -⟩ := skips_unique (skips_desc hd) (skips_desc hd') e
  subst e1
  rcases desc_same hd hd' with h | h
  · exact hc h
  · exact hn h

theorem ends_described {c : UInt64} {n : String} {α : Type} {A L : Rep α} (h : EndsAlike A L) :
    EndsAlike (fun x => described c n (A x)) (fun x => described c n (L x)) := fun x x' u u' r r' h1 h2 e => by
  obtain ⟨db, b, hd, hb, rfl⟩ := h1
  obtain ⟨db', b', hd', hb', rfl⟩ := h2
  simp only [List.cons_append, List.append_assoc, List.cons.injEq, true_and] at e
  obtain ⟨e1, e2⟩ := skips_unique (skips_desc hd) (skips_desc hd') e
  rw [e1, h _ _ _ _ _ _ hb hb' e2]

theorem ends_composite {c : UInt64} {n : String} {sl sl' : List Slot} {u u' r r' : Bytes}
    (h : described c n (FieldList sl) u) (h' : described c n (Lenient.fieldList env sl') u')
    (e : u ++ r = u' ++ r') : u = u' :=
  ends_described (ends_fieldList (α := Unit) (as := fun _ => sl) (ls := fun _ => sl')) () () _ _ _ _ h h' e

theorem section_ends {s s' : Section} {u u' r r' : Bytes} (h : Lenient.messageSection .all s u)
    (h' : Lenient.messageSection (.lenient env) s' u') (e : u ++ r = u' ++ r') :
    u = u' ∧ s.sameKind s' := by
  cases s <;> cases s' <;>
    first
    | exact (described_apart (by decide) (by decide) h h' e).elim
    | refine ⟨?_, trivial⟩
  · exact ends_composite h h' e
  · exact ends_described ends_annotations _ _ _ _ _ _ h h' e
  · exact ends_described ends_annotations _ _ _ _ _ _ h h' e
  · exact ends_described ends_stringMap _ _ _ _ _ _ h h' e
  · exact ends_described ends_binary _ _ _ _ _ _ h h' e
  · exact ends_described ends_list _ _ _ _ _ _ h h' e
  · exact ends_described ends_any _ _ _ _ _ _ h h' e
  · exact ends_described ends_annotations _ _ _ _ _ _ h h' e
  · exact ends_composite h h' e

theorem section_accepted {s : Section} {u : Bytes} (h : Lenient.messageSection .all s u)
    (h' : Lenient.messageSection (.lenient env) s u) : Lenient.messageSection (.accepted env) s u := by
  cases s with
  | Header v => exact (aln_header v u u [] [] h h' rfl).2
  | DeliveryAnnotations v => exact (aln_deliveryAnnotations v u u [] [] h h' rfl).2
  | MessageAnnotations v => exact (aln_messageAnnotations v u u [] [] h h' rfl).2
  | Properties v => exact (aln_properties v u u [] [] h h' rfl).2
  | ApplicationProperties v => exact (aln_applicationProperties v u u [] [] h h' rfl).2
  | Data v => exact h
  | AmqpSequence v => exact (aln_amqpSequence v u u [] [] h h' rfl).2
  | AmqpValue v => exact (aln_amqpValue v u u [] [] h h' rfl).2
  | Footer v => exact (aln_footer v u u [] [] h h' rfl).2

theorem section_ne_nil {S : Scope} {s : Section} {t : Bytes} :
    ¬ ∃ u, Lenient.messageSection S s u ∧ [] = u ++ t := by
  rintro ⟨u, h, e⟩
  cases s <;> (obtain ⟨db, x, -, -, rfl⟩ := h; cases e)

/-! ## Sections one after the other -/

def Laid (S : Scope) : List Section → Bytes → Prop
  | [], b => b = []
  | s :: l, b => ∃ u t, b = u ++ t ∧ Lenient.messageSection S s u ∧ Laid S l t

theorem laid_append {S : Scope} {l l' : List Section} {b : Bytes} :
    Laid S (l ++ l') b ↔ ∃ u t, b = u ++ t ∧ Laid S l u ∧ Laid S l' t := by
  induction l generalizing b with
  | nil => exact ⟨fun h => ⟨[], b, rfl, rfl, h⟩, fun ⟨u, t, e, h, h'⟩ => by cases h; rw [e]; exact h'⟩
  | cons s l ih =>
    constructor
    · rintro ⟨u, t, rfl, h, ht⟩
      obtain ⟨v, w, rfl, h1, h2⟩ := ih.1 ht
      exact ⟨u ++ v, w, (List.append_assoc ..).symm, ⟨u, v, rfl, h, h1⟩, h2⟩
    · rintro ⟨_, w, rfl, ⟨u, v, rfl, h, h1⟩, h2⟩
      exact ⟨u, v ++ w, List.append_assoc .., h, ih.2 ⟨v, w, rfl, h1, h2⟩⟩

theorem laid_items {S : Scope} : ∀ {items : List (Section × Bytes)},
    (∀ p ∈ items, Lenient.messageSection S p.1 p.2) →
    Laid S (items.map Prod.fst) (items.flatMap Prod.snd)
  | [], _ => rfl
  | p :: _, h => ⟨p.2, _, rfl, h p List.mem_cons_self,
      laid_items fun q hq => h q (List.mem_cons_of_mem _ hq)⟩

theorem laid_maybe {S : Scope} {α : Type} {R : Rep α} {K : α → Section}
    (hK : ∀ a b, Lenient.messageSection S (K a) b ↔ R a b) {o : Option α} {b : Bytes} :
    Maybe R o b ↔ Laid S (o.toList.map K) b := by
  cases o with
  | none => exact ⟨fun h => by cases h; rfl, fun h => by cases h; exact .none⟩
  | some a =>
    constructor
    · rintro (_ | h)
      exact ⟨b, [], (List.append_nil b).symm, (hK _ _).2 h, rfl⟩
    · rintro ⟨u, t, rfl, h, rfl⟩
      rw [List.append_nil]
      exact .some ((hK _ _).1 h)

theorem laid_several {S : Scope} {α : Type} {R : Rep α} {K : α → Section}
    (hK : ∀ a b, Lenient.messageSection S (K a) b ↔ R a b) {l : List α} {b : Bytes} :
    Several R l b ↔ l ≠ [] ∧ Laid S (l.map K) b := by
  constructor
  · intro h
    induction h with
    | last h => exact ⟨by simp, _, [], (List.append_nil _).symm, (hK _ _).2 h, rfl⟩
    | more h _ ih => exact ⟨by simp, _, _, rfl, (hK _ _).2 h, ih.2⟩
  · rintro ⟨hl, h⟩
    induction l generalizing b with
    | nil => exact (hl rfl).elim
    | cons a l ih =>
      obtain ⟨u, t, rfl, h, ht⟩ := h
      cases l with
      | nil => cases ht; rw [List.append_nil]; exact .last ((hK _ _).1 h)
      | cons a' l => exact .more ((hK _ _).1 h) (ih (by simp) ht)

def bodySections : Body → List Section
  | .data l => l.map .Data
  | .sequence l => l.map .AmqpSequence
  | .value v => [.AmqpValue v]

def someBody : Body → Prop
  | .data l => l ≠ []
  | .sequence l => l ≠ []
  | .value _ => True

theorem laid_body {S : Scope} {x : Body} {b : Bytes} :
    Standard.body S x b ↔ someBody x ∧ Laid S (bodySections x) b := by
  cases x with
  | data l => exact laid_several (R := Standard.data) (K := .Data) fun _ _ => Iff.rfl
  | sequence l => exact laid_several (R := Standard.amqpSequence S) (K := .AmqpSequence) fun _ _ => Iff.rfl
  | value v =>
    constructor
    · exact fun h => ⟨trivial, b, [], (List.append_nil b).symm, h, rfl⟩
    · rintro ⟨-, u, t, rfl, h, rfl⟩
      rw [List.append_nil]
      exact h

def sectionsOf (m : Standard.Message) : List Section :=
  m.header.toList.map .Header ++ (m.delivery_annotations.toList.map .DeliveryAnnotations ++
  (m.message_annotations.toList.map .MessageAnnotations ++ (m.properties.toList.map .Properties ++
  (m.application_properties.toList.map .ApplicationProperties ++ (bodySections m.body ++
  m.footer.toList.map .Footer)))))

theorem laid_message {S : Scope} {m : Standard.Message} {b : Bytes} :
    Standard.message S m b ↔ someBody m.body ∧ Laid S (sectionsOf m) b := by
  simp only [sectionsOf, laid_append]
  constructor
  · rintro ⟨h, da, ma, p, ap, bd, f, h1, h2, h3, h4, h5, h6, h7, rfl⟩
    obtain ⟨hb, h6⟩ := laid_body.1 h6
    refine ⟨hb, h, _, ?_, (laid_maybe fun _ _ => Iff.rfl).1 h1, da, _, rfl,
      (laid_maybe fun _ _ => Iff.rfl).1 h2, ma, _, rfl, (laid_maybe fun _ _ => Iff.rfl).1 h3, p, _, rfl,
      (laid_maybe fun _ _ => Iff.rfl).1 h4, ap, _, rfl, (laid_maybe fun _ _ => Iff.rfl).1 h5, bd, f, rfl,
      h6, (laid_maybe fun _ _ => Iff.rfl).1 h7⟩
    simp only [List.append_assoc]
  · rintro ⟨hb, h, _, rfl, h1, da, _, rfl, h2, ma, _, rfl, h3, p, _, rfl, h4, ap, _, rfl, h5, bd, f, rfl,
      h6, h7⟩
    refine ⟨h, da, ma, p, ap, bd, f, (laid_maybe fun _ _ => Iff.rfl).2 h1,
      (laid_maybe fun _ _ => Iff.rfl).2 h2, (laid_maybe fun _ _ => Iff.rfl).2 h3,
      (laid_maybe fun _ _ => Iff.rfl).2 h4, (laid_maybe fun _ _ => Iff.rfl).2 h5,
      laid_body.2 ⟨hb, h6⟩, (laid_maybe fun _ _ => Iff.rfl).2 h7, ?_⟩
    simp only [List.append_assoc]

/-! ## The sections that are read are those that were written -/

inductive SameKinds : List Section → List Section → Prop
  | nil : SameKinds [] []
  | cons {s s' : Section} {l l' : List Section} : s.sameKind s' → SameKinds l l' →
      SameKinds (s :: l) (s' :: l')

theorem laid_kinds : ∀ {l l' : List Section} {b : Bytes}, Laid .all l b → Laid (.lenient env) l' b →
    SameKinds l l'
  | [], [], _, _, _ => .nil
  | [], _ :: _, _, h, ⟨u, t, e, h', _⟩ => by cases h; exact (section_ne_nil ⟨u, h', e⟩).elim
  | _ :: _, [], _, ⟨u, t, e, h', _⟩, h => by cases h; exact (section_ne_nil ⟨u, h', e⟩).elim
  | s :: l, s' :: l', _, ⟨u, t, rfl, h, ht⟩, ⟨u', t', e, h', ht'⟩ => by
    obtain ⟨e1, hk⟩ := section_ends h h' e
    subst e1
    cases List.append_cancel_left e
    exact .cons hk (laid_kinds ht ht')

theorem laid_accepted : ∀ {l : List Section} {b : Bytes}, Laid .all l b → Laid (.lenient env) l b →
    Laid (.accepted env) l b
  | [], _, h, _ => h
  | s :: l, _, ⟨u, t, rfl, h, ht⟩, ⟨u', t', e, h', ht'⟩ => by
    obtain ⟨e1, hk⟩ := section_ends h h' e
    subst e1
    cases List.append_cancel_left e
    exact ⟨u, t, rfl, section_accepted h h', laid_accepted ht ht'⟩

/-- What a section of each kind holds. -/
structure Held where
  header : List Header
  delivery : List Annotations
  annotations : List Annotations
  properties : List Properties
  application : List StringVariantMap
  data : List Binary
  sequence : List VList
  value : List Variant
  footer : List Annotations

def held (l : List Section) : Held where
  header := l.filterMap fun | .Header v => some v | _ => none
  delivery := l.filterMap fun | .DeliveryAnnotations v => some v | _ => none
  annotations := l.filterMap fun | .MessageAnnotations v => some v | _ => none
  properties := l.filterMap fun | .Properties v => some v | _ => none
  application := l.filterMap fun | .ApplicationProperties v => some v | _ => none
  data := l.filterMap fun | .Data v => some v | _ => none
  sequence := l.filterMap fun | .AmqpSequence v => some v | _ => none
  value := l.filterMap fun | .AmqpValue v => some v | _ => none
  footer := l.filterMap fun | .Footer v => some v | _ => none

theorem SameKinds.eq {l l' : List Section} (h : SameKinds l l') (e : held l = held l') : l = l' := by
  induction h with
  | nil => rfl
  | @cons s s' l l' hk _ ih =>
    cases s <;> cases s' <;> first | exact hk.elim | skip
    all_goals
      simp only [held, List.filterMap_cons, Held.mk.injEq, List.cons.injEq] at e
      rw [ih (by simp only [held, Held.mk.injEq]; simp_all)]
      simp_all

theorem SameKinds.length {l l' : List Section} (h : SameKinds l l') {α : Type} (f : Section → Option α)
    (hf : ∀ s s', Section.sameKind s s' → (f s).isSome = (f s').isSome) :
    (l.filterMap f).length = (l'.filterMap f).length := by
  induction h with
  | nil => rfl
  | @cons s s' l l' hk _ ih =>
    have := hf s s' hk
    simp only [List.filterMap_cons]
    cases h1 : f s <;> cases h2 : f s' <;> simp_all

theorem last_only {α : Type} {o : Option α} {l : List α} (hl : o.toList.length = l.length)
    (e : o = l.getLast?) : o.toList = l := by
  cases o with
  | none => exact (List.length_eq_zero_iff.1 hl.symm).symm
  | some a =>
    obtain ⟨b, rfl⟩ := List.length_eq_one_iff.1 hl.symm
    simp at e
    rw [e]; rfl

theorem held_sectionsOf (m : Standard.Message) : held (sectionsOf m) =
    ⟨m.header.toList, m.delivery_annotations.toList, m.message_annotations.toList,
      m.properties.toList, m.application_properties.toList, m.body.datas, m.body.sequences,
      m.body.single.toList, m.footer.toList⟩ := by
  obtain ⟨h, da, ma, p, ap, bd, f⟩ := m
  simp only [held, sectionsOf, List.filterMap_append, Held.mk.injEq]
  cases h <;> cases da <;> cases ma <;> cases p <;> cases ap <;> cases f <;> cases bd <;>
    simp [bodySections, Body.datas, Body.sequences, Body.single, List.filterMap_map, Function.comp_def]

theorem read_sections {m : Standard.Message} {l : List Section} {b : Bytes}
    (h : Laid .all (sectionsOf m) b) (h' : Laid (.lenient env) l b)
    (e : m.asReceived id = Lenient.gathered id l) : sectionsOf m = l := by
  have hk := laid_kinds h h'
  refine hk.eq ?_
  have hm := held_sectionsOf m
  have L {α : Type} (f : Section → Option α) (o : Option α) (ho : (sectionsOf m).filterMap f = o.toList)
      (hf : ∀ s s', Section.sameKind s s' → (f s).isSome = (f s').isSome)
      (he : o = (l.filterMap f).getLast?) : o.toList = l.filterMap f :=
    last_only (ho ▸ hk.length f hf) he
  rw [hm]
  simp only [held, Held.mk.injEq] at hm ⊢
  obtain ⟨h1, h2, h3, h4, h5, h6, h7, h8, h9⟩ := hm
  have e5 := congrArg (·.application_properties) e
  simp only [Standard.Message.asReceived, Lenient.gathered, Option.map_id_fun, id_eq] at e5
  exact ⟨L _ _ h1 (by intro s s' hs; cases s <;> cases s' <;> first | rfl | exact hs.elim)
      (congrArg (·.header) e),
    L _ _ h2 (by intro s s' hs; cases s <;> cases s' <;> first | rfl | exact hs.elim)
      (congrArg (·.delivery_annotations) e),
    L _ _ h3 (by intro s s' hs; cases s <;> cases s' <;> first | rfl | exact hs.elim)
      (congrArg (·.message_annotations) e),
    L _ _ h4 (by intro s s' hs; cases s <;> cases s' <;> first | rfl | exact hs.elim)
      (congrArg (·.properties) e),
    L _ _ h5 (by intro s s' hs; cases s <;> cases s' <;> first | rfl | exact hs.elim) e5,
    congrArg (·.data) e, congrArg (·.sequence) e,
    L _ _ h8 (by intro s s' hs; cases s <;> cases s' <;> first | rfl | exact hs.elim)
      (congrArg (·.value) e),
    L _ _ h9 (by intro s s' hs; cases s <;> cases s' <;> first | rfl | exact hs.elim)
      (congrArg (·.footer) e)⟩

end
end Amqp
