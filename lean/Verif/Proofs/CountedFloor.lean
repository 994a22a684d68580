import Verif.Spec.Counted
import Verif.Proofs.CountedLaws
/-!
# Counting decoders count at least what was decoded
-/
set_option autoImplicit false
namespace Amqp
open Dec Cost

section
variable {α β : Type}

/-- A successful decode costs at least `w` of the value. -/
def Floor (w : α → Nat) (c : Cost α) : Prop := ∀ i r a, (c i).1 = .ok (r, a) → w a ≤ (c i).2

theorem Floor.zero (c : Cost α) : Floor (fun _ => 0) c := fun _ _ _ _ => Nat.zero_le _

theorem Floor.bind {w : α → Nat} {w' : β → Nat} {c : Cost α} {f : α → Cost β} (h : Floor w c)
    (hf : ∀ a, Floor (fun b => w' b - w a) (f a)) : Floor w' (c >>= f) := by
  intro i r b hb
  obtain ⟨r1, a, h1, h2, h3⟩ := bindC_ok hb
  have g1 := h _ _ _ h1
  have g2 := hf a _ _ _ h2
  dsimp only at g2
  omega

theorem Floor.pure {w : α → Nat} {a : α} (h : w a = 0) : Floor w (Pure.pure a : Cost α) := by
  intro i r b hb
  injection hb with hb; injection hb with _ h2
  subst h2
  rw [h]; exact Nat.zero_le _

theorem Floor.mono {w w' : α → Nat} {c : Cost α} (h : Floor w c) (hw : ∀ a, w' a ≤ w a) : Floor w' c :=
  fun i r a hd => Nat.le_trans (hw a) (h i r a hd)

theorem Floor.reserve (n : Nat) : Floor (fun _ => n) (Cost.reserve n) := fun _ _ _ _ => Nat.le_refl _

theorem Floor.call {w : α → Nat} {c : Cost α} (p : Price) (h : Floor w c) :
    Floor (fun a => p.call + w a) (Cost.call p >>= fun _ => c) :=
  (Floor.reserve p.call).bind fun _ => h.mono fun a => by omega

theorem Floor.decodeN {w : α → Nat} {c : Cost α} (h : Floor w c) :
    ∀ n, Floor (total w) (decodeNC c n)
  | 0 => Floor.pure rfl
  | n + 1 => h.bind fun a => (Floor.decodeN h n).bind fun l => Floor.pure (by simp [total])

theorem decodeNC_length {c : Cost α} : ∀ n i r l, (decodeNC c n i).1 = .ok (r, l) → l.length = n
  | 0, i, r, l, h => by
    injection h with h; injection h with _ h2; subst h2; rfl
  | n + 1, i, r, l, h => by
    obtain ⟨r1, a, h1, h2, _⟩ := bindC_ok h
    obtain ⟨r2, t, h3, h4, _⟩ := bindC_ok h2
    injection h4 with h4; injection h4 with _ h5; subst h5
    simp [decodeNC_length n _ _ _ h3]

theorem Floor.slice {w : α → Nat} {c : Cost α} (h : Floor w c) (n : Nat) :
    Floor w (withSliceC n c) := by
  intro i r a hd
  unfold withSliceC at hd ⊢
  split at hd
  · cases hd
  · rename_i hn
    rw [if_neg hn]
    have h1 := h (i.take n)
    rcases hci : c (i.take n) with ⟨x, m⟩
    rw [hci] at hd h1
    cases x with
    | ok q =>
      injection hd with hd; injection hd with _ h4
      subst h4
      exact h1 q.1 q.2 rfl
    | err e => cases hd
    | panic p => cases hd

theorem insertEntry_length {K V : Type} [HKey K] (k : K) (v : V) :
    ∀ l : List (K × V), (insertEntry HKey.keq k v l).length ≤ l.length + 1
  | [] => Nat.le_refl _
  | (k', v') :: t => by
    unfold insertEntry
    split
    · simp
    · have := insertEntry_length k v t
      simp only [List.length_cons]; omega

theorem floor_mapLoop {K V : Type} [HKey K] {wk : K → Nat} {wv : V → Nat} {kc : Cost K} {vc : Cost V}
    (hk : Floor wk kc) (hv : Floor wv vc) : ∀ n acc i r m, (mapLoopC kc vc n acc i).1 = .ok (r, m) →
      total (fun e => wk e.1 + wv e.2) m ≤
        total (fun e => wk e.1 + wv e.2) acc + (mapLoopC kc vc n acc i).2 ∧
      m.length ≤ acc.length + n
  | 0, acc, i, r, m, h => by
    injection h with h; injection h with _ h2; subst h2
    exact ⟨Nat.le_add_right _ _, Nat.le_refl _⟩
  | n + 1, acc, i, r, m, h => by
    unfold mapLoopC at h ⊢
    obtain ⟨r1, k, h1, h2, e1⟩ := bindC_ok h
    obtain ⟨r2, v, h3, h4, e2⟩ := bindC_ok h2
    rw [e1, e2]
    have g1 := hk _ _ _ h1
    have g2 := hv _ _ _ h3
    by_cases hok : HKey.hashOk k = true
    · rw [if_pos hok] at h4 ⊢
      have ih := floor_mapLoop hk hv n _ _ _ _ h4
      have g3 := total_insertEntry wk wv k v acc
      have g4 := insertEntry_length k v acc
      omega
    · rw [if_neg hok] at h4; cases h4

theorem bill_list (p : Price) : ∀ l, billList p l = total (Variant.bill p) l
  | [] => rfl
  | v :: t => by
    have := bill_list p t
    simp [billList, total] at this ⊢; omega
theorem bill_map (p : Price) : ∀ m, billMap p m =
    total (fun e : Variant × Variant => e.1.bill p + e.2.bill p) m
  | [] => rfl
  | (k, v) :: t => by
    have := bill_map p t
    simp [billMap, total] at this ⊢; omega

theorem floor_map {K V : Type} [HKey K] {wk : K → Nat} {wv : V → Nat} {kc : Cost K} {vc : Cost V}
    (p : Price) (hk : Floor wk kc) (hv : Floor wv vc) (env : Env) (fmt : UInt8) :
    Floor (fun m => p.call + (m.length * p.room + total (fun e => wk e.1 + wv e.2) m))
      (decodeMapP p kc vc env fmt) := by
  refine Floor.call p ?_
  refine (Floor.zero _).bind fun h => Floor.slice ?_ _
  intro i r m hd
  obtain ⟨r1, _, h1, h2, e⟩ := bindC_ok hd
  have h3 := floor_mapLoop hk hv _ _ _ _ _ h2
  have h4 : (Cost.room p (h.count / 2) i).2 = h.count / 2 * p.room := rfl
  rw [e, h4]
  have h5 : m.length * p.room ≤ h.count / 2 * p.room :=
    Nat.mul_le_mul_right _ (by simpa using h3.2)
  have h6 : total (fun e : K × V => wk e.1 + wv e.2) [] = 0 := rfl
  rw [h6] at h3
  have := h3.1
  dsimp only
  omega

theorem floor_list {vc : Cost Variant} {w : Variant → Nat} (p : Price) (hv : Floor w vc) (env : Env)
    (fmt : UInt8) :
    Floor (fun l => p.call + (l.length * p.room + total w l)) (decodeListP p vc env fmt) := by
  refine Floor.call p ?_
  refine (Floor.zero _).bind fun h => ?_
  intro i r m hd
  obtain ⟨r1, _, h1, h2, e⟩ := bindC_ok hd
  have h3 := hv.decodeN h.count _ _ _ h2
  have h4 : (Cost.room p h.count i).2 = h.count * p.room := rfl
  have h5 := decodeNC_length _ _ _ _ h2
  rw [e, h4, ← h5]
  dsimp only
  rw [h5]
  omega

end

/-! ## Texts and binaries -/

theorem floor_copy (p : Price) (d : Dec Bytes) :
    Floor (fun b => b.length * p.byte) (copyC p d) := by
  intro i r b h
  rw [copyC_run] at h ⊢
  dsimp only at h ⊢
  rw [h]
  exact Nat.le_refl _

theorem floor_text (p : Price) (d : Dec Bytes) :
    Floor (fun s => 2 * s.bytes.length * p.byte) (textC p d) := by
  intro i r s h
  rw [textC_run] at h ⊢
  obtain ⟨r1, b, h1, h2⟩ := bind_eq_ok.1 h
  obtain ⟨rfl, e⟩ := fromUtf8_ok h2
  dsimp only
  rw [h1]
  dsimp only
  rw [h2, e, Nat.mul_assoc]
  exact Nat.le_refl _

theorem Floor.map {α β : Type} {w : α → Nat} {w' : β → Nat} {c : Cost α} (h : Floor w c) (f : α → β)
    (hf : ∀ a, w' (f a) ≤ w a) : Floor w' (c >>= fun a => Pure.pure (f a)) := by
  refine h.bind fun a => ?_
  intro i r b hb
  injection hb with hb; injection hb with _ h2
  subst h2
  have := hf a
  dsimp only
  omega

theorem Floor.ite {α : Type} {q : Prop} [Decidable q] {w : α → Nat} {c c' : Cost α} (h : Floor w c)
    (h' : Floor w c') : Floor w (if q then c else c') := by
  split <;> assumption

theorem Floor.fail {α : Type} {w : α → Nat} (e : ParseError) :
    Floor w (Cost.of (Dec.fail e) : Cost α) := fun _ _ _ h => by cases h

theorem floor_binary (p : Price) (env : Env) (fmt : UInt8) :
    Floor (fun b : Binary => p.call + b.data.length * p.byte) (decFC p env fmt) :=
  (((floor_copy p _).map _ fun _ => Nat.le_refl _).ite (((floor_copy p _).map _ fun _ =>
    Nat.le_refl _).ite (Floor.fail _))).call p
theorem floor_string (p : Price) (env : Env) (fmt : UInt8) :
    Floor (fun s : RStr => p.call + 2 * s.bytes.length * p.byte) (decFC p env fmt) :=
  ((floor_text p _).ite ((floor_text p _).ite (Floor.fail _))).call p
theorem floor_symbol (p : Price) (env : Env) (fmt : UInt8) :
    Floor (fun s : Symbol => p.call + 2 * s.str.bytes.length * p.byte) (decFC p env fmt) :=
  (((floor_text p _).map _ fun _ => Nat.le_refl _).ite (((floor_text p _).map _ fun _ =>
    Nat.le_refl _).ite (Floor.fail _))).call p

theorem floor_descriptor (p : Price) (env : Env) :
    Floor (Descriptor.bill p) (decodeC Descriptor p env) := by
  refine (Floor.zero _).bind fun fmt => Floor.mono (w := Descriptor.bill p) ?_ fun a => by omega
  have h : Floor (fun d => Descriptor.bill p d - p.call) (if fmt = FC.smallUlong ∨ fmt = FC.ulong then
      (decFC p env fmt >>= fun v => Pure.pure (.ulong v) : Cost Descriptor)
    else if fmt = FC.symbol8 ∨ fmt = FC.symbol32 then
      (decFC p env fmt >>= fun v => Pure.pure (.symbol v))
    else Cost.of (Dec.fail (.invalidFormatCode fmt))) :=
    (((Floor.zero _).map _ fun a => by simp [Descriptor.bill])).ite
      (((floor_symbol p env fmt).map _ fun a => by simp only [Descriptor.bill]; omega).ite (Floor.fail _))
  exact (h.call p).mono fun a => by omega

/-- Everything but lists, maps, described values, texts and binaries is one node. -/
theorem bill_plain (p : Price) (env : Env) (d : Nat) (fmt : UInt8)
    (h1 : ¬(fmt = FC.list8 ∨ fmt = FC.list32)) (h2 : ¬(fmt = FC.map8 ∨ fmt = FC.map32))
    (h3 : fmt ≠ FC.described) (h5 : ¬(fmt = FC.binary8 ∨ fmt = FC.binary32))
    (h6 : ¬(fmt = FC.string8 ∨ fmt = FC.string32)) (h7 : ¬(fmt = FC.symbol8 ∨ fmt = FC.symbol32)) :
    Post (decVariant env (d + 1) fmt) fun _ _ v => v.bill p ≤ p.call := by
  have hp : ∀ v : Variant, v.bill p ≤ p.call → Post (Pure.pure v : Dec Variant) fun _ _ v => v.bill p ≤ p.call := by
    intro v hv i r w h
    injection h with h; injection h with _ h2
    subst h2; exact hv
  have hm : ∀ {α : Type} (f : α → Variant) (dd : Dec α), (∀ a, (f a).bill p ≤ p.call) →
      Post (f <$> dd) fun _ _ v => v.bill p ≤ p.call := by
    intro α f dd hf i r w h
    obtain ⟨a, _, rfl⟩ := map_eq_ok.1 h
    exact hf a
  have n1 : fmt ≠ FC.list8 := fun e => h1 (.inl e)
  have n2 : fmt ≠ FC.list32 := fun e => h1 (.inr e)
  have n3 : fmt ≠ FC.map8 := fun e => h2 (.inl e)
  have n4 : fmt ≠ FC.map32 := fun e => h2 (.inr e)
  have n5 := (not_or.1 h5).1
  have n6 := (not_or.1 h5).2
  have n7 := (not_or.1 h6).1
  have n8 := (not_or.1 h6).2
  have n9 := (not_or.1 h7).1
  have n10 := (not_or.1 h7).2
  unfold decVariant
  simp only [if_neg n1, if_neg n2, if_neg n3, if_neg n4, if_neg h3, if_neg n5, if_neg n6, if_neg n7,
    if_neg n8, if_neg n9, if_neg n10]
  repeat' apply Dec.Post.ite
  all_goals first
    | exact Dec.Post.fail _
    | exact hp _ (by simp [Variant.bill, billList])
    | exact hm _ _ (fun a => by simp [Variant.bill])

theorem floor_variant (p : Price) (env : Env) : ∀ d fmt, Floor (Variant.bill p) (decVariantP p env d fmt)
  | 0, _ => fun _ _ _ h => by cases h
  | d + 1, fmt => by
    have hv : Floor (Variant.bill p) (Cost.of formatCode >>= fun f => decVariantP p env d f) :=
      (Floor.zero _).bind fun f => floor_variant p env d f
    unfold decVariantP
    by_cases h1 : fmt = FC.list8 ∨ fmt = FC.list32
    · simp only [if_pos h1]
      intro i r v h
      obtain ⟨r1, _, h0, h, e⟩ := bindC_ok h
      obtain ⟨r2, l, h2, h3, e2⟩ := bindC_ok h
      injection h3 with h3; injection h3 with _ h4; subst h4
      have := floor_list p hv env fmt _ _ _ h2
      have e3 : (Cost.call p i).2 = p.call := rfl
      rw [e, e2, e3]
      simp only [Variant.bill, bill_list]
      dsimp only at this
      omega
    simp only [if_neg h1]
    by_cases h2 : fmt = FC.map8 ∨ fmt = FC.map32
    · simp only [if_pos h2]
      intro i r v h
      obtain ⟨r1, _, h0, h, e⟩ := bindC_ok h
      obtain ⟨r2, l, h2, h3, e2⟩ := bindC_ok h
      injection h3 with h3; injection h3 with _ h4; subst h4
      have := floor_map p hv hv env fmt _ _ _ h2
      have e3 : (Cost.call p i).2 = p.call := rfl
      rw [e, e2, e3]
      simp only [Variant.bill, bill_map]
      dsimp only at this
      omega
    simp only [if_neg h2]
    by_cases h3 : fmt = FC.described
    · simp only [if_pos h3]
      intro i r v h
      obtain ⟨r1, _, h0, h, e⟩ := bindC_ok h
      obtain ⟨r2, ds, h4, h, e2⟩ := bindC_ok h
      obtain ⟨r3, w, h5, h6, e4⟩ := bindC_ok h
      injection h6 with h6; injection h6 with _ h7; subst h7
      have g1 := hv _ _ _ h5
      have e3 : (Cost.call p i).2 = p.call := rfl
      have g2 := floor_descriptor p env _ _ _ h4
      rw [e, e2, e3, e4]
      simp only [Variant.bill]
      omega
    simp only [if_neg h3]
    have hb : ∀ {α : Type} {w : α → Nat} {c : Cost α} (f : α → Variant),
        Floor w c → (∀ a, (f a).bill p ≤ w a) →
        Floor (Variant.bill p) (Cost.call p >>= fun _ => c >>= fun a => Pure.pure (f a)) :=
      fun f h hw => ((h.map f hw).call p).mono fun a => by omega
    by_cases h5 : fmt = FC.binary8 ∨ fmt = FC.binary32
    · simp only [if_pos h5]
      exact hb _ (floor_binary p env fmt) fun a => by simp [Variant.bill]
    simp only [if_neg h5]
    by_cases h6 : fmt = FC.string8 ∨ fmt = FC.string32
    · simp only [if_pos h6]
      exact hb _ (floor_string p env fmt) fun a => by simp [Variant.bill]
    simp only [if_neg h6]
    by_cases h7 : fmt = FC.symbol8 ∨ fmt = FC.symbol32
    · simp only [if_pos h7]
      exact hb _ (floor_symbol p env fmt) fun a => by simp [Variant.bill]
    simp only [if_neg h7]
    have hp := bill_plain p env d fmt h1 h2 h3 h5 h6 h7
    by_cases h4 : delegated fmt = true
    · simp only [if_pos h4]
      intro i r v h
      have g : decVariant env (d + 1) fmt i = .ok (r, v) := h
      have := hp _ _ _ g
      show _ ≤ p.call + (p.call + 0)
      dsimp only at this
      omega
    · simp only [if_neg h4]
      intro i r v h
      have g : decVariant env (d + 1) fmt i = .ok (r, v) := h
      have := hp _ _ _ g
      show _ ≤ p.call + 0
      dsimp only at this
      omega

end Amqp
