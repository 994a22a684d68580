import Verif.Spec.Oversize
import Verif.Proofs.MapLaws
/-!
# Laws about length fields
-/
set_option autoImplicit false
namespace Amqp
open Dec

theorem withinMap_iff (env : Env) (m : List (Variant × Variant)) :
    withinMap env m ↔ ∀ e ∈ m, e.1.Within env ∧ e.2.Within env := by
  induction m with
  | nil => simp [withinMap]
  | cons e t ih => obtain ⟨k, v⟩ := e; simp [withinMap, ih]

theorem vsizeMap_length (m : List (Variant × Variant)) :
    (m.flatMap fun e => enc e.1 ++ enc e.2).length = vsizeMap m := by
  rw [show (m.flatMap fun e => enc e.1 ++ enc e.2) = mapContent Variant.venc Variant.venc m from
    (mapContent_flatMap Variant.venc Variant.venc m).symm, vsizeMap_eq]
  exact (mapContent_length m (fun e _ => e.1.vsize_eq) (fun e _ => e.2.vsize_eq)).symm

/-! ### Compound headers -/

theorem subChecked_wrap {env : Env} {n : Nat} (h : CompoundRoom env n) (i : Bytes) :
    subChecked env 32 ((n + 4) % 2 ^ 32) 4 i = .ok (i, n) := by
  unfold subChecked
  rcases h with h | ⟨h1, h2⟩
  · rw [Nat.mod_eq_of_lt h, if_pos (by omega)]
    show Res.ok (i, n + 4 - 4) = _
    rw [Nat.add_sub_cancel]
  · by_cases h3 : n + 4 < 2 ^ 32
    · rw [Nat.mod_eq_of_lt h3, if_pos (by omega)]
      show Res.ok (i, n + 4 - 4) = _
      rw [Nat.add_sub_cancel]
    · have e : (n + 4) % 2 ^ 32 = n + 4 - 2 ^ 32 := by omega
      rw [e, if_neg (by omega), h1]
      show Res.ok (i, n + 4 - 2 ^ 32 + 2 ^ 32 - 4) = _
      congr 2; omega

theorem subChecked_room {env : Env} {n k : Nat} {i r : Bytes} (hk : n ≤ k)
    (h : subChecked env 32 ((n + 4) % 2 ^ 32) 4 i = .ok (r, k)) : CompoundRoom env n := by
  unfold subChecked at h
  unfold CompoundRoom
  split at h
  · injection h with h; injection h with _ h
    omega
  · cases he : env.overflowChecks with
    | true => rw [he] at h; cases h
    | false =>
      rw [he] at h
      injection h with h; injection h with _ h
      right
      exact ⟨rfl, by omega⟩

theorem compound32_bytes (env : Env) (n k : Nat) (rest : Bytes) :
    decodeCompound32 env (beEnc 4 n ++ beEnc 4 k ++ rest) =
      (subChecked env 32 (n % 2 ^ 32) 4 >>= fun s => pure ⟨s, k % 2 ^ 32⟩) rest := by
  unfold decodeCompound32
  rw [Dec.bind_ok (Reads.takeN (beEnc 4 n ++ beEnc 4 k) (n := 8) (by simp) rest)]
  rw [List.take_left' (by simp), List.drop_left' (by simp), beDec_beEnc, beDec_beEnc]

theorem reads_compound32_room {env : Env} {n k : Nat} (hn : CompoundRoom env n) (hk : k ≤ n) :
    Reads (decodeCompound32 env) (beEnc 4 (n + 4) ++ beEnc 4 k) ⟨n, k⟩ := by
  intro more
  rw [compound32_bytes, Dec.bind_ok (subChecked_wrap hn more)]
  have hk2 : k < 2 ^ 32 := by rcases hn with h | h <;> omega
  rw [Nat.mod_eq_of_lt hk2]
  rfl

theorem compoundHdr_reads_room {env : Env} {c8 c32 : UInt8} {hd : UInt8 → Dec CompoundHeader}
    {n k : Nat} (h8 : hd c8 = decodeCompound8 env) (h32 : hd c32 = decodeCompound32 env)
    (hn : CompoundRoom env n) (hk : k ≤ n) :
    ∃ c w, compoundHdr c8 c32 n k = c :: w ∧ (c = c8 ∨ c = c32) ∧ Reads (hd c) w ⟨n, k⟩ := by
  unfold compoundHdr
  split
  · exact ⟨_, _, rfl, Or.inr rfl, h32 ▸ reads_compound32_room hn hk⟩
  · exact ⟨_, _, rfl, Or.inl rfl, h8 ▸ reads_compound8 env (by omega) (by omega)⟩

/-- Reading a written header back: the size read is at least the content only if
there was room for it. -/
theorem compoundHdr_inv {env : Env} {c8 c32 : UInt8} {hd : UInt8 → Dec CompoundHeader} {n k : Nat}
    (h8 : hd c8 = decodeCompound8 env) (h32 : hd c32 = decodeCompound32 env) (hk : k ≤ n) :
    ∃ c w, compoundHdr c8 c32 n k = c :: w ∧ (c = c8 ∨ c = c32) ∧ ∀ rest r h,
      hd c (w ++ rest) = .ok (r, h) → r = rest ∧ (n ≤ h.size → CompoundRoom env n) ∧
        h.count ≤ k := by
  unfold compoundHdr
  split
  · refine ⟨_, _, rfl, Or.inr rfl, fun rest r h h1 => ?_⟩
    rw [h32, compound32_bytes] at h1
    obtain ⟨r1, s, h2, h3⟩ := bind_eq_ok.1 h1
    injection h3 with h3; injection h3 with h3 h4
    subst h3 h4
    have hr : r1 = rest := by
      unfold subChecked at h2
      split at h2
      · injection h2 with h2; injection h2 with h2 _; exact h2.symm
      · split at h2
        · cases h2
        · injection h2 with h2; injection h2 with h2 _; exact h2.symm
    exact ⟨hr, fun hle => subChecked_room hle h2, Nat.mod_le _ _⟩
  · refine ⟨_, _, rfl, Or.inl rfl, fun rest r h h1 => ?_⟩
    rw [h8, reads_compound8 env (by omega) (by omega) rest] at h1
    injection h1 with h1; injection h1 with h1 h2
    subst h1 h2
    exact ⟨rfl, fun _ => Or.inl (by omega), Nat.le_refl _⟩

/-! ### Text and binary -/

theorem binary_bound {env : Env} {c : UInt8} {i r : Bytes} {b : Binary}
    (h : (decF env c : Dec Binary) i = .ok (r, b)) : b.data.length < 2 ^ 32 := by
  have hp : Post (decF env c : Dec Binary) fun _ _ b => b.data.length < 2 ^ 32 := by
    refine Dec.Post.ite ?_ (Dec.Post.ite ?_ (Dec.Post.fail _)) <;> intro i r a h
    · obtain ⟨s, h1, rfl⟩ := map_eq_ok.1 h
      have := (readBytesU8_ok h1).1
      show s.length < 2 ^ 32
      omega
    · obtain ⟨s, h1, rfl⟩ := map_eq_ok.1 h
      exact (readBytesU32_ok h1).1
  exact hp _ _ _ h

theorem str_bound {env : Env} {c : UInt8} {i r : Bytes} {s : Str}
    (h : (decF env c : Dec Str) i = .ok (r, s)) : s.bytes.length < 2 ^ 32 := by
  have hp : Post (decF env c : Dec Str) fun _ _ s => s.bytes.length < 2 ^ 32 := by
    refine Dec.Post.ite ?_ (Dec.Post.ite ?_ (Dec.Post.fail _)) <;> intro i r a h
    · obtain ⟨r1, b, h2, h3⟩ := bind_eq_ok.1 h
      obtain ⟨rfl, e⟩ := fromUtf8_ok h3
      have := (readBytesU8_ok h2).1
      rw [e]; omega
    · obtain ⟨r1, b, h2, h3⟩ := bind_eq_ok.1 h
      obtain ⟨rfl, e⟩ := fromUtf8_ok h3
      have := (readBytesU32_ok h2).1
      rw [e]; omega
  exact hp _ _ _ h

theorem symbol_bound {env : Env} {c : UInt8} {i r : Bytes} {s : Symbol}
    (h : (decF env c : Dec Symbol) i = .ok (r, s)) : s.str.bytes.length < 2 ^ 32 := by
  have hp : Post (decF env c : Dec Symbol) fun _ _ s => s.str.bytes.length < 2 ^ 32 := by
    refine Dec.Post.ite ?_ (Dec.Post.ite ?_ (Dec.Post.fail _)) <;> intro i r a h
    · obtain ⟨s, h1, rfl⟩ := map_eq_ok.1 h
      obtain ⟨r1, b, h2, h3⟩ := bind_eq_ok.1 h1
      obtain ⟨rfl, e⟩ := fromUtf8_ok h3
      have := (readBytesU8_ok h2).1
      dsimp only
      rw [e]; omega
    · obtain ⟨s, h1, rfl⟩ := map_eq_ok.1 h
      obtain ⟨r1, b, h2, h3⟩ := bind_eq_ok.1 h1
      obtain ⟨rfl, e⟩ := fromUtf8_ok h3
      have := (readBytesU32_ok h2).1
      dsimp only
      rw [e]; omega
  exact hp _ _ _ h

/-! ### Variants -/

theorem good_leaf {env : Env} {v : Variant} (hl : ∀ l, v ≠ .list l) (hm : ∀ m, v ≠ .map m)
    (hd : ∀ d w, v ≠ .described d w) (h : v.Survives) (hw : v.Within env) : v.Good := by
  cases v with
  | list l => exact absurd rfl (hl l)
  | map m => exact absurd rfl (hm m)
  | described d w => exact absurd rfl (hd d w)
  | timestamp t => simp only [Variant.Survives, Variant.Good] at h ⊢; exact h
  | staticSymbol s => simp only [Variant.Survives] at h
  | binary b => simpa only [Variant.Good, Variant.Within] using hw
  | string b => simpa only [Variant.Good, Variant.Within] using hw
  | symbol b => simpa only [Variant.Good, Variant.Within] using hw
  | _ => simp only [Variant.Good]

theorem Descriptor.good_of {d : Descriptor} (h : d ≠ .ulong 0) (hw : d.Within) : d.good := by
  cases d with
  | ulong n => exact fun e => h (by rw [e])
  | symbol s => exact hw

theorem mapCount_le (m : List (Variant × Variant)) : m.length * 2 ≤ vsizeMap m := by
  rw [vsizeMap_eq]
  exact mapContentSize_ge m (fun e _ => size_pos e.1) (fun e _ => size_pos e.2)

theorem reads_within (env : Env) (v : Variant) (h : v.Survives) (hw : v.Within env) :
    ∀ d, v.depth ≤ d → Reads (decVar env d) v.venc v := by
  induction v using Variant.ind with
  | leaf v hl hm hd => exact reads_variant env v (good_leaf hl hm hd h hw)
  | list l ih => simp only [Variant.Survives] at h
  | map m ih =>
    intro d hdep
    simp only [Variant.Survives, survivesMap_iff] at h
    simp only [Variant.Within, withinMap_iff, vsizeMap_length] at hw
    simp only [Variant.depth] at hdep
    obtain ⟨d, rfl⟩ : ∃ d', d = d' + 1 := ⟨d - 1, by omega⟩
    have hdl := depthMap_le (d := d) (by omega : depthMap m ≤ d)
    obtain ⟨c, w, e, hc, hr⟩ := compoundHdr_reads_room (env := env) (c8 := FC.map8)
      (c32 := FC.map32) (hd := decodeMapHeader env) rfl rfl hw.1 (mapCount_le m)
    have hlen : (vencMap m).length = vsizeMap m := by
      rw [vencMap_eq, vsizeMap_eq]
      exact (mapContent_length m (fun e _ => e.1.vsize_eq) (fun e _ => e.2.vsize_eq)).symm
    have hloop := mapLoop_reads m [] (ke := Variant.venc) (ve := Variant.venc)
      (fun e he => (ih e he).1 (h.1 e he).1 (hw.2 e he).1 d (hdl e he).1)
      (fun e he => (ih e he).2 (h.1 e he).2 (hw.2 e he).2 d (hdl e he).2)
      h.2.1 (by simpa using h.2.2) []
    rw [List.append_nil, List.nil_append, ← vencMap_eq] at hloop
    have hs : Reads (withSlice (vsizeMap m) (mapLoop (decVar env d) (decVar env d)
        (m.length * 2 / 2) [])) (vencMap m) m := by
      rw [Nat.mul_div_cancel _ (by omega)]
      exact Reads.withSlice hlen hloop
    have hb := Reads.bind hr (f := fun header : CompoundHeader => withSlice header.size
      (mapLoop (decVar env d) (decVar env d) (header.count / 2) [])) hs
    have e' : (Variant.map m).venc = c :: (w ++ vencMap m) := by
      simp only [Variant.venc, e]; rfl
    rw [e']
    intro more
    show decVariant env (d + 1) c ((w ++ vencMap m) ++ more) = _
    have e2 : decVariant env (d + 1) c =
        Variant.map <$> decodeMapWith (decVar env d) (decVar env d) env c := by
      rcases hc with rfl | rfl <;> rfl
    rw [e2]
    exact map_ok (hb more)
  | described ds v ih =>
    intro d hdep
    simp only [Variant.Survives] at h
    simp only [Variant.Within] at hw
    simp only [Variant.depth] at hdep
    obtain ⟨d, rfl⟩ : ∃ d', d = d' + 1 := ⟨d - 1, by omega⟩
    have h1 := ih h.2 hw.2 d (by omega)
    intro more
    simp only [Variant.venc, Descriptor.enc_eq]
    show decVariant env (d + 1) FC.described (ds.body ++ v.venc ++ more) = _
    have := Reads.bind (reads_descriptor env ds (Descriptor.good_of h.1 hw.1))
      (f := fun ds => decVar env d >>= fun v => pure (Variant.described ds v))
      (Reads.bind h1 (Reads.pure _)) more
    rw [List.append_nil] at this
    exact this

theorem local_mapLoop {K V : Type} [HKey K] {kd : Dec K} {vd : Dec V} (hk : Local kd)
    (hv : Local vd) : ∀ (n : Nat) (acc : List (K × V)), Local (mapLoop kd vd n acc)
  | 0, _ => Local.pure _
  | n + 1, acc => by
    refine hk.bind fun k => hv.bind fun v => ?_
    split
    · exact local_mapLoop hk hv n _
    · intro i r a h; cases h

/-- What a decoder reads from an encoded variant, if it is that variant. -/
def Exactly (env : Env) (d : Nat) (v : Variant) : Prop :=
  ∀ rest rest', decVar env d (v.venc ++ rest) = .ok (rest', v) →
    v.Survives ∧ v.Within env ∧ v.depth ≤ d ∧ rest' = rest

theorem mapLoop_exactly {env : Env} {d : Nat} : ∀ {l acc : List (Variant × Variant)} {r rest : Bytes},
    (∀ e ∈ l, Exactly env d e.1 ∧ Exactly env d e.2) → NodupKeys acc →
    mapLoop (decVar env d) (decVar env d) l.length acc (vencMap l ++ rest) = .ok (r, acc ++ l) →
    (∀ e ∈ l, (e.1.Survives ∧ e.2.Survives) ∧ (e.1.Within env ∧ e.2.Within env) ∧
      e.1.hashOk = true ∧ e.1.depth ≤ d ∧ e.2.depth ≤ d) ∧
      NodupKeys (acc ++ l) ∧ r = rest
  | [], acc, r, rest, _, hn, h => by
    injection h with h; injection h with h _
    exact ⟨by simp, by simpa using hn, h.symm⟩
  | (k, v) :: t, acc, r, rest, hf, hn, h => by
    obtain ⟨r1, k1, r2, v1, h1, h2, hh, h3⟩ := mapLoop_succ h
    obtain ⟨hle, hpre⟩ := mapLoop_shape h3
    rcases insertEntry_cases HKey.keq k1 v1 acc with ⟨e, hfresh⟩ | ⟨e, _⟩
    · rw [e] at h3 hpre
      obtain ⟨l', hl'⟩ := hpre (by simp; omega)
      have hl2 : (k, v) :: t = (k1, v1) :: l' := by
        rw [List.append_assoc] at hl'
        exact List.append_cancel_left hl'
      injection hl2 with e1 _
      injection e1 with ek ev
      subst ek ev
      simp only [vencMap, List.append_assoc] at h1
      obtain ⟨s1, w1, d1, rfl⟩ := (hf (k, v) (by simp)).1 _ _ h1
      obtain ⟨s2, w2, d2, rfl⟩ := (hf (k, v) (by simp)).2 _ _ h2
      have hn' : NodupKeys (acc ++ [(k, v)]) := by
        refine List.pairwise_append.2 ⟨hn, List.pairwise_singleton _ _, fun a ha b hb => ?_⟩
        rw [List.mem_singleton] at hb
        subst hb
        exact hfresh a ha
      have h3' : mapLoop (decVar env d) (decVar env d) t.length (acc ++ [(k, v)])
          (vencMap t ++ rest) = .ok (r, (acc ++ [(k, v)]) ++ t) := by rw [h3]; simp
      obtain ⟨g1, g2, g3⟩ := mapLoop_exactly (fun e he => hf e (by simp [he])) hn' h3'
      refine ⟨fun e he => ?_, by simpa using g2, g3⟩
      rcases List.mem_cons.1 he with rfl | he
      · exact ⟨⟨s1, s2⟩, ⟨w1, w2⟩, hh, d1, d2⟩
      · exact g1 e he
    · exfalso
      rw [e] at hle
      simp at hle; omega

theorem exactly_of {env : Env} {v : Variant} {d : Nat} (h : ∀ rest rest',
    decVar env d (v.venc ++ rest) = .ok (rest', v) → v.Survives ∧ v.Within env ∧ v.depth ≤ d) :
    Exactly env d v := by
  intro rest rest' hd
  obtain ⟨h1, h2, h3⟩ := h rest rest' hd
  refine ⟨h1, h2, h3, ?_⟩
  rw [reads_within env v h1 h2 d h3 rest] at hd
  injection hd with hd; injection hd with hd _
  exact hd.symm

theorem exactly_text {α : Type} [Encode α] [DecodeF α] {env : Env} {f : α → Variant} {a : α}
    {P : Prop} (hinj : ∀ x y, f x = f y → x = y) (hne : enc a ≠ [])
    (hc : ∀ d c w, enc a = c :: w → decVariant env (d + 1) c = f <$> decF env c)
    (hb : ∀ c i r, (decF env c : Dec α) i = .ok (r, a) → P) :
    ∀ d rest rest', decVar env d (enc a ++ rest) = .ok (rest', f a) → P := by
  intro d rest rest' h
  cases d with
  | zero => exact absurd h decVar_zero
  | succ d =>
    cases e : enc a with
    | nil => exact absurd e hne
    | cons c w =>
      rw [e, List.cons_append, decVar_cons, hc d c w e] at h
      obtain ⟨x, h1, h2⟩ := map_eq_ok.1 h
      have := hinj _ _ h2
      subst this
      exact hb _ _ _ h1

theorem descriptor_bound {env : Env} {c : UInt8} {i r : Bytes} {d : Descriptor}
    (h : (decF env c : Dec Descriptor) i = .ok (r, d)) : d.Within := by
  have hp : Post (decF env c : Dec Descriptor) fun _ _ d => d.Within := by
    refine Dec.Post.ite ?_ (Dec.Post.ite ?_ (Dec.Post.ite ?_ (Dec.Post.ite ?_ (Dec.Post.fail _))))
      <;> intro i r a h
    · obtain ⟨s, _, rfl⟩ := map_eq_ok.1 h; trivial
    · obtain ⟨s, _, rfl⟩ := map_eq_ok.1 h; trivial
    · obtain ⟨s, h1, rfl⟩ := map_eq_ok.1 h; exact symbol_bound h1
    · obtain ⟨s, h1, rfl⟩ := map_eq_ok.1 h; exact symbol_bound h1
  exact hp _ _ _ h

theorem exactly (env : Env) (v : Variant) : ∀ d, Exactly env d v := by
  induction v using Variant.ind with
  | leaf v hl hm hd =>
    intro d
    refine exactly_of fun rest rest' h => ?_
    have hdep : v.depth ≤ d := by
      cases d with
      | zero => exact absurd h decVar_zero
      | succ d => cases v <;> simp_all [Variant.depth]
    refine and_assoc.1 ⟨?_, hdep⟩
    cases v with
    | list l => exact absurd rfl (hl l)
    | map m => exact absurd rfl (hm m)
    | described d w => exact absurd rfl (hd d w)
    | binary b =>
      simp only [Variant.Survives, Variant.Within, true_and]
      exact exactly_text (f := Variant.binary) (fun x y h => by injection h)
        (NonEmptyEnc.ne b) (fun d c w e => by rcases varEnc_cases e with rfl | rfl <;> rfl)
        (fun c i r h => binary_bound h) d rest rest' h
    | string b =>
      simp only [Variant.Survives, Variant.Within, true_and]
      exact exactly_text (f := Variant.string) (fun x y h => by injection h)
        (NonEmptyEnc.ne b) (fun d c w e => by rcases varEnc_cases e with rfl | rfl <;> rfl)
        (fun c i r h => str_bound h) d rest rest' h
    | symbol b =>
      simp only [Variant.Survives, Variant.Within, true_and]
      exact exactly_text (f := Variant.symbol) (fun x y h => by injection h)
        (NonEmptyEnc.ne b) (fun d c w e => by rcases varEnc_cases e with rfl | rfl <;> rfl)
        (fun c i r h => symbol_bound h) d rest rest' h
    | staticSymbol s =>
      exfalso
      cases d with
      | zero => exact absurd h decVar_zero
      | succ d =>
        cases e : (Variant.staticSymbol s).venc with
        | nil => exact absurd e (NonEmptyEnc.ne (Variant.staticSymbol s))
        | cons c w =>
          rw [e, List.cons_append, decVar_cons] at h
          have : decVariant env (d + 1) c = Variant.symbol <$> decF env c := by
            rcases varEnc_cases e with rfl | rfl <;> rfl
          rw [this] at h
          obtain ⟨x, _, h2⟩ := map_eq_ok.1 h
          cases h2
    | timestamp t =>
      simp only [Variant.Survives, Variant.Within, and_true]
      cases d with
      | zero => exact absurd h decVar_zero
      | succ d =>
        have h' : (Variant.timestamp <$> decF env FC.timestamp)
            (beEnc 8 (Int64.ofInt t.millis).toUInt64.toNat ++ rest) =
            .ok (rest', Variant.timestamp t) := h
        obtain ⟨t', h1, h2⟩ := map_eq_ok.1 h'
        injection h2 with h2
        subst h2
        exact datetime_survives (env := env) (rest := rest) (rest' := rest') h1
    | _ => simp only [Variant.Survives, Variant.Within, and_self]
  | list l ih =>
    intro d rest rest' h
    exfalso
    cases d with
    | zero => exact absurd h decVar_zero
    | succ d =>
      obtain ⟨c, t, e, hc⟩ := compoundHdr_head FC.array8 FC.array32 (vsizeList l) l.length
        (vencList l)
      rw [show (Variant.list l).venc = c :: t from e] at h
      rcases hc with rfl | rfl <;> cases h
  | map m ih =>
    intro d
    refine exactly_of fun rest rest' h => ?_
    cases d with
    | zero => exact absurd h decVar_zero
    | succ d =>
      obtain ⟨c, w, e, hc, hr⟩ : ∃ c w, compoundHdr FC.map8 FC.map32 (vsizeMap m) (m.length * 2) =
          c :: w ∧ (c = FC.map8 ∨ c = FC.map32) ∧ ∀ rest r h,
            decodeMapHeader env c (w ++ rest) = .ok (r, h) →
              r = rest ∧ (vsizeMap m ≤ h.size → CompoundRoom env (vsizeMap m)) ∧
                h.count ≤ m.length * 2 :=
        compoundHdr_inv rfl rfl (mapCount_le m)
      have e' : (Variant.map m).venc = c :: (w ++ vencMap m) := by
        simp only [Variant.venc, e]; rfl
      rw [e', List.cons_append, decVar_cons] at h
      have e2 : decVariant env (d + 1) c =
          Variant.map <$> decodeMapWith (decVar env d) (decVar env d) env c := by
        rcases hc with rfl | rfl <;> rfl
      rw [e2] at h
      obtain ⟨m', h1, h2⟩ := map_eq_ok.1 h
      injection h2 with h2
      subst m'
      rw [List.append_assoc] at h1
      obtain ⟨body, hdr, h3, h4⟩ := bind_eq_ok.1 h1
      obtain ⟨rfl, hroom, hcount⟩ := hr _ _ _ h3
      obtain ⟨hsz, -, r', h5⟩ := withSlice_ok h4
      have hlen : (vencMap m).length = vsizeMap m := by
        rw [vencMap_eq, vsizeMap_eq]
        exact (mapContent_length m (fun e _ => e.1.vsize_eq) (fun e _ => e.2.vsize_eq)).symm
      have hcnt : hdr.count / 2 = m.length := by
        have := (mapLoop_shape h5).1
        simp only [List.length_nil] at this
        omega
      rw [hcnt] at h5
      -- the loop reads the same entries from the whole input
      obtain ⟨w', hw', hmore⟩ := local_mapLoop (local_decVar env d) (local_decVar env d) _ _ _ _ _ h5
      have hfull := hmore (r' ++ (vencMap m ++ rest).drop hdr.size)
      rw [← List.append_assoc, ← hw', List.take_append_drop] at hfull
      obtain ⟨g1, g2, g3⟩ := mapLoop_exactly (acc := [])
        (fun e he => ⟨(ih e he).1 d, (ih e he).2 d⟩) List.Pairwise.nil hfull
      have hle : vsizeMap m ≤ hdr.size := by
        have := congrArg List.length g3
        simp only [List.length_append, List.length_drop] at this hsz
        omega
      refine ⟨?_, ?_, ?_⟩
      · simp only [Variant.Survives, survivesMap_iff]
        exact ⟨fun e he => (g1 e he).1, fun e he => (g1 e he).2.2.1, by simpa using g2⟩
      · simp only [Variant.Within, withinMap_iff, vsizeMap_length]
        exact ⟨hroom hle, fun e he => (g1 e he).2.1⟩
      · simp only [Variant.depth]
        have := depthMap_le_of (m := m) (d := d) (fun e he => (g1 e he).2.2.2)
        omega
  | described ds v ih =>
    intro d
    refine exactly_of fun rest rest' h => ?_
    cases d with
    | zero => exact absurd h decVar_zero
    | succ d =>
      simp only [Variant.venc, Descriptor.enc_eq] at h
      have h' : (decode Descriptor env >>= fun ds => decVar env d >>= fun v =>
          pure (Variant.described ds v)) (ds.body ++ (v.venc ++ rest)) =
          .ok (rest', Variant.described ds v) := by
        rw [← List.append_assoc]; exact h
      obtain ⟨r1, ds1, h1, h2⟩ := bind_eq_ok.1 h'
      obtain ⟨r2, v1, h3, h4⟩ := bind_eq_ok.1 h2
      injection h4 with h4; injection h4 with h5 h6
      injection h6 with h6 h7
      subst h5 h6 h7
      have hne : ds1 ≠ .ulong 0 := by
        rintro rfl
        have e0 : (Descriptor.ulong 0).body = [0x44] := by decide
        rw [e0] at h1
        cases h1
      have hwi : ds1.Within := by
        obtain ⟨c, i', _, h8⟩ := decode_ok h1
        exact descriptor_bound h8
      rw [reads_descriptor env ds1 (Descriptor.good_of hne hwi) (v1.venc ++ rest)] at h1
      injection h1 with h1; injection h1 with h1 _
      subst h1
      obtain ⟨g1, g2, g3, _⟩ := ih d rest r2 h3
      refine ⟨?_, ?_, by simp only [Variant.depth]; omega⟩
      · simp only [Variant.Survives]; exact ⟨hne, g1⟩
      · simp only [Variant.Within]; exact ⟨hwi, g2⟩

end Amqp
