import Verif.Proofs.Compound
/-!
# Codec laws for `Variant`
-/
namespace Amqp
open Dec

/-! ### Induction -/

section
variable {P : Variant → Prop}
  (leaf : ∀ v, (∀ l, v ≠ .list l) → (∀ m, v ≠ .map m) → (∀ d w, v ≠ .described d w) → P v)
  (list : ∀ l, (∀ v ∈ l, P v) → P (.list l))
  (map : ∀ m, (∀ e ∈ m, P e.1 ∧ P e.2) → P (.map m))
  (described : ∀ d v, P v → P (.described d v))
include leaf list map described

mutual
/-- Induction over variants with the children of collections as hypotheses. -/
theorem Variant.ind : ∀ v, P v
  | .list l => list l (Variant.indList l)
  | .map m => map m (Variant.indMap m)
  | .described d v => described d v (Variant.ind v)
  | .null => leaf _ nofun nofun nofun
  | .boolean _ => leaf _ nofun nofun nofun
  | .ubyte _ => leaf _ nofun nofun nofun
  | .ushort _ => leaf _ nofun nofun nofun
  | .uint _ => leaf _ nofun nofun nofun
  | .ulong _ => leaf _ nofun nofun nofun
  | .byte _ => leaf _ nofun nofun nofun
  | .short _ => leaf _ nofun nofun nofun
  | .int _ => leaf _ nofun nofun nofun
  | .long _ => leaf _ nofun nofun nofun
  | .float _ => leaf _ nofun nofun nofun
  | .double _ => leaf _ nofun nofun nofun
  | .char _ => leaf _ nofun nofun nofun
  | .timestamp _ => leaf _ nofun nofun nofun
  | .uuid _ => leaf _ nofun nofun nofun
  | .binary _ => leaf _ nofun nofun nofun
  | .string _ => leaf _ nofun nofun nofun
  | .symbol _ => leaf _ nofun nofun nofun
  | .staticSymbol _ => leaf _ nofun nofun nofun
theorem Variant.indList : ∀ (l : List Variant), ∀ v ∈ l, P v
  | [], _, h => nomatch h
  | a :: t, v, h => by
    rcases List.mem_cons.1 h with e | h
    · rw [e]; exact Variant.ind a
    · exact Variant.indList t v h
theorem Variant.indMap : ∀ (m : List (Variant × Variant)), ∀ e ∈ m, P e.1 ∧ P e.2
  | [], _, h => nomatch h
  | (k, w) :: t, e, h => by
    rcases List.mem_cons.1 h with e | h
    · rw [e]; exact ⟨Variant.ind k, Variant.ind w⟩
    · exact Variant.indMap t e h
end
end

/-! ### Encoded size -/

theorem vsizeMap_eq (m : List (Variant × Variant)) :
    vsizeMap m = mapContentSize Variant.vsize Variant.vsize m := by
  induction m with
  | nil => simp [vsizeMap, mapContentSize]
  | cons e t ih => obtain ⟨k, v⟩ := e; simp [vsizeMap, mapContentSize, ih]
theorem vencMap_eq (m : List (Variant × Variant)) :
    vencMap m = mapContent Variant.venc Variant.venc m := by
  induction m with
  | nil => simp [vencMap, mapContent]
  | cons e t ih => obtain ⟨k, v⟩ := e; simp [vencMap, mapContent, ih]
theorem vencList_eq (l : List Variant) : vencList l = l.flatMap Variant.venc := by
  induction l with
  | nil => simp [vencList]
  | cons e t ih => simp [vencList, ih]

theorem vsizeList_length (l : List Variant) (h : ∀ v ∈ l, v.vsize = v.venc.length) :
    vsizeList l = (vencList l).length := by
  induction l with
  | nil => simp [vsizeList, vencList]
  | cons e t ih =>
    simp [vsizeList, vencList, h e (by simp), ih (fun v hv => h v (by simp [hv]))]

theorem Variant.vsize_eq (v : Variant) : v.vsize = v.venc.length := by
  induction v using Variant.ind with
  | leaf v hl hm hd =>
    cases v with
    | list l => exact absurd rfl (hl l)
    | map m => exact absurd rfl (hm m)
    | described d w => exact absurd rfl (hd d w)
    | null => simp [vsize, venc, encNull]
    | staticSymbol s => exact (varEnc_length _ _ _).symm
    | _ => simp only [vsize, venc]; exact LawfulEnc.size_eq _
  | list l ih =>
    simp only [vsize, venc, List.length_append, ← vsizeList_length l ih, compoundHdr_length]
  | map m ih =>
    have := mapContent_length (ks := vsize) (vs := vsize) (ke := venc) (ve := venc) m
      (fun e he => (ih e he).1) (fun e he => (ih e he).2)
    simp only [vsize, venc, List.length_append, vencMap_eq, vsizeMap_eq, ← this, compoundHdr_length]
  | described d v ih => simp [vsize, venc, ih, LawfulEnc.size_eq]

instance : LawfulEnc Variant := ⟨Variant.vsize_eq⟩

theorem fixed_ne {α : Type} [ArrayEncode α] (v : α) : (fixedEncode α).enc v ≠ [] := by
  simp [enc]

theorem Variant.venc_ne (v : Variant) : v.venc ≠ [] := by
  cases v with
  | null => simp [venc, encNull]
  | list l =>
    obtain ⟨c, t, e, _⟩ := compoundHdr_head FC.array8 FC.array32 (vsizeList l) l.length (vencList l)
    simp [venc, e]
  | map m =>
    obtain ⟨c, t, e, _⟩ := compoundHdr_head FC.map8 FC.map32 (vsizeMap m) (m.length * 2) (vencMap m)
    simp [venc, e]
  | described d v => simp [venc, Descriptor.enc_eq]
  | staticSymbol s => 
    obtain ⟨c, t, e, _⟩ := varEnc_head FC.symbol8 FC.symbol32 s.bytes (by decide) (by decide)
    simp [venc, encStaticSymbol, e]
  | _ => simp only [venc]; exact NonEmptyEnc.ne _

instance : NonEmptyEnc Variant := ⟨Variant.venc_ne⟩

instance : LawfulEnc VList := ⟨fun l => by
  show compoundSize _ = (_ ++ _ : Bytes).length
  rw [List.length_append, ← vsizeList_length l.items (fun v _ => v.vsize_eq), compoundHdr_length]⟩
instance : NonNull VList := ⟨fun l => by
  obtain ⟨c, t, e, hc⟩ := compoundHdr_head FC.array8 FC.array32 (vsizeList l.items) l.items.length
    (vencList l.items)
  exact ⟨c, t, e, by rcases hc with rfl | rfl <;> decide⟩⟩
instance : LawfulEnc VecVariantMap := ⟨fun m => by
  have := mapContent_length (ks := size) (vs := size) (ke := enc) (ve := enc) m.entries
    (fun e _ => LawfulEnc.size_eq _) (fun e _ => LawfulEnc.size_eq _)
  have h2 := compoundHdr_length FC.map8 FC.map32 (mapContentSize size size m.entries)
    (m.entries.length * 2)
  show compoundSize (mapContentSize size size m.entries) = (_ ++ _ : Bytes).length
  rw [← h2, List.length_append, ← this]⟩
instance : NonNull VecVariantMap := ⟨fun m => by
  obtain ⟨c, t, e, hc⟩ := compoundHdr_head FC.map8 FC.map32 (mapContentSize size size m.entries)
    (m.entries.length * 2) (mapContent enc enc m.entries)
  exact ⟨c, t, e, by rcases hc with rfl | rfl <;> decide⟩⟩

/-! ### Locality -/

/-- `Variant::decode` with a recursion budget. -/
def decVar (env : Env) (d : Nat) : Dec Variant := formatCode >>= decVariant env d

theorem decode_variant (env : Env) : decode Variant env = decVar env env.stackDepth := rfl

theorem local_variant (env : Env) : ∀ d fmt, Local (decVariant env d fmt)
  | 0, _ => Local.abort _
  | d + 1, fmt => by
    have hvd : Local (formatCode >>= fun f => decVariant env d f) :=
      Local.readU8.bind fun f => local_variant env d f
    have hd : Local (decode Descriptor env) := local_decode fun f => LawfulDec.loc env f
    unfold decVariant
    simp only
    repeat' apply Local.ite
    all_goals first
      | exact Local.pure _
      | exact Local.fail _
      | exact (LawfulDec.loc env fmt).map _
      | exact (Local.decodeListWith hvd env fmt).map _
      | exact (Local.decodeMapWith _ _ env fmt).map _
      | exact hd.bind fun _ => hvd.bind fun _ => Local.pure _

theorem local_decVar (env : Env) (d : Nat) : Local (decVar env d) :=
  Local.readU8.bind fun f => local_variant env d f

instance : LawfulDec Variant := ⟨fun env fmt => local_variant env _ fmt⟩
instance : LawfulDec VList := ⟨fun env fmt =>
  (Local.decodeListWith (local_decVar env env.stackDepth) env fmt).map _⟩
instance : LawfulDec VecVariantMap := ⟨fun env fmt =>
  (Local.decodeMapHeader env fmt).bind fun _ => (Local.withSlice _ _).map _⟩

/-! ### Round trip -/

mutual
/-- Variants that survive a round trip (C14): no lists, no static symbols,
canonical timestamps, descriptors other than `Ulong(0)`, text and binaries
below `2^32` bytes; maps with distinct, hashable keys and below `2^32` bytes. -/
def Variant.Good : Variant → Prop
  | .timestamp t => t.canonical
  | .binary b => b.data.length < 2 ^ 32
  | .string s => s.bytes.length < 2 ^ 32
  | .symbol s => s.str.bytes.length < 2 ^ 32
  | .staticSymbol _ => False
  | .list _ => False
  | .map m => goodMap m ∧ (∀ e ∈ m, e.1.hashOk = true) ∧
      NodupKeys m ∧ vsizeMap m + 4 < 2 ^ 32
  | .described d v => d.good ∧ v.Good
  | _ => True
def goodMap : List (Variant × Variant) → Prop
  | [] => True
  | (k, v) :: t => (k.Good ∧ v.Good) ∧ goodMap t
end

theorem goodMap_iff (m : List (Variant × Variant)) :
    goodMap m ↔ ∀ e ∈ m, e.1.Good ∧ e.2.Good := by
  induction m with
  | nil => simp [goodMap]
  | cons e t ih => obtain ⟨k, v⟩ := e; simp [goodMap, ih]

theorem depthMap_le {m : List (Variant × Variant)} {d : Nat} (h : depthMap m ≤ d) :
    ∀ e ∈ m, e.1.depth ≤ d ∧ e.2.depth ≤ d := by
  induction m with
  | nil => simp
  | cons e t ih =>
    obtain ⟨k, v⟩ := e
    simp only [depthMap] at h
    intro e he
    rcases List.mem_cons.1 he with rfl | he
    · simp only; omega
    · exact ih (by omega) e he

theorem depthList_le {l : List Variant} {d : Nat} (h : depthList l ≤ d) : ∀ v ∈ l, v.depth ≤ d := by
  induction l with
  | nil => simp
  | cons e t ih =>
    simp only [depthList] at h
    intro v hv
    rcases List.mem_cons.1 hv with rfl | hv
    · omega
    · exact ih (by omega) v hv

theorem Variant.depth_pos (v : Variant) : 0 < v.depth := by
  cases v <;> simp [depth]

theorem reads_leaf {α : Type} [Encode α] [DecodeF α] [HasWf α] [LawfulCodec α] {env : Env} {d : Nat}
    (f : α → Variant) (a : α) (h : wf env a) (hne : enc a ≠ [])
    (hc : ∀ c w, enc a = c :: w → decVariant env (d + 1) c = f <$> decF env c) :
    Reads (decVar env (d + 1)) (enc a) (f a) := by
  intro more
  have h1 := LawfulCodec.rt env a h more
  cases e : enc a with
  | nil => exact absurd e hne
  | cons c w =>
    rw [e] at h1
    show decVariant env (d + 1) c (w ++ more) = _
    rw [hc c w e]
    exact map_ok h1

theorem varEnc_cases {c8 c32 c : UInt8} {b w : Bytes} (h : varEnc c8 c32 b = c :: w) :
    c = c8 ∨ c = c32 := by
  unfold varEnc at h
  split at h
  · injection h with h1 _; exact Or.inr h1.symm
  · injection h with h1 _; exact Or.inl h1.symm

theorem reads_variant (env : Env) (v : Variant) (h : v.Good) :
    ∀ d, v.depth ≤ d → Reads (decVar env d) v.venc v := by
  induction v using Variant.ind with
  | leaf v hl hm hd =>
    intro d hdep
    obtain ⟨d, rfl⟩ : ∃ d', d = d' + 1 := ⟨d - 1, by have := v.depth_pos; omega⟩
    cases v with
    | list l => exact absurd rfl (hl l)
    | map m => exact absurd rfl (hm m)
    | described d w => exact absurd rfl (hd d w)
    | null => exact fun _ => rfl
    | staticSymbol s => exact (by simpa [Variant.Good] using h : False).elim
    | boolean b =>
      refine reads_leaf Variant.boolean b trivial (NonEmptyEnc.ne _) ?_
      intro c w e; cases b <;> (injection e with e1 _; subst e1; rfl)
    | uint n =>
      refine reads_leaf Variant.uint n trivial (NonEmptyEnc.ne _) ?_
      intro c w e; simp only [enc] at e; split at e
      · injection e with e1 _; subst e1; rfl
      · split at e <;> (injection e with e1 _; subst e1; rfl)
    | ulong n =>
      refine reads_leaf Variant.ulong n trivial (NonEmptyEnc.ne _) ?_
      intro c w e; simp only [enc] at e; split at e
      · injection e with e1 _; subst e1; rfl
      · split at e <;> (injection e with e1 _; subst e1; rfl)
    | int n =>
      refine reads_leaf Variant.int n trivial (NonEmptyEnc.ne _) ?_
      intro c w e; simp only [enc] at e; split at e <;> (injection e with e1 _; subst e1; rfl)
    | long n =>
      refine reads_leaf Variant.long n trivial (NonEmptyEnc.ne _) ?_
      intro c w e; simp only [enc] at e; split at e <;> (injection e with e1 _; subst e1; rfl)
    | ubyte n =>
      refine reads_leaf Variant.ubyte n trivial (NonEmptyEnc.ne _) ?_
      intro c w e; injection e with e1 _; subst e1; rfl
    | ushort n =>
      refine reads_leaf Variant.ushort n trivial (NonEmptyEnc.ne _) ?_
      intro c w e; injection e with e1 _; subst e1; rfl
    | byte n =>
      refine reads_leaf Variant.byte n trivial (NonEmptyEnc.ne _) ?_
      intro c w e; injection e with e1 _; subst e1; rfl
    | short n =>
      refine reads_leaf Variant.short n trivial (NonEmptyEnc.ne _) ?_
      intro c w e; injection e with e1 _; subst e1; rfl
    | float n =>
      refine reads_leaf Variant.float n trivial (NonEmptyEnc.ne _) ?_
      intro c w e; injection e with e1 _; subst e1; rfl
    | double n =>
      refine reads_leaf Variant.double n trivial (NonEmptyEnc.ne _) ?_
      intro c w e; injection e with e1 _; subst e1; rfl
    | char n =>
      refine reads_leaf Variant.char n trivial (NonEmptyEnc.ne _) ?_
      intro c w e; injection e with e1 _; subst e1; rfl
    | timestamp n =>
      refine reads_leaf Variant.timestamp n (by simp only [Variant.Good] at h; exact h) (NonEmptyEnc.ne _) ?_
      intro c w e; injection e with e1 _; subst e1; rfl
    | uuid n =>
      refine reads_leaf Variant.uuid n trivial (NonEmptyEnc.ne _) ?_
      intro c w e; injection e with e1 _; subst e1; rfl
    | binary n =>
      refine reads_leaf Variant.binary n (by simp only [Variant.Good] at h; exact h) (NonEmptyEnc.ne _) ?_
      intro c w e; rcases varEnc_cases e with rfl | rfl <;> rfl
    | string n =>
      refine reads_leaf Variant.string n (by simp only [Variant.Good] at h; exact h) (NonEmptyEnc.ne _) ?_
      intro c w e; rcases varEnc_cases e with rfl | rfl <;> rfl
    | symbol n =>
      refine reads_leaf Variant.symbol n (by simp only [Variant.Good] at h; exact h) (NonEmptyEnc.ne _) ?_
      intro c w e; rcases varEnc_cases e with rfl | rfl <;> rfl
  | list l ih => exact (by simpa [Variant.Good] using h : False).elim
  | map m ih =>
    intro d hdep
    simp only [Variant.Good, goodMap_iff] at h
    simp only [Variant.depth] at hdep
    obtain ⟨d, rfl⟩ : ∃ d', d = d' + 1 := ⟨d - 1, by omega⟩
    have hdl := depthMap_le (d := d) (by omega : depthMap m ≤ d)
    obtain ⟨hg, hh, hn, hs⟩ := h
    have g : MapGood (decVar env d) (decVar env d) Variant.vsize Variant.vsize Variant.venc
        Variant.venc m :=
      { key := fun e he => ⟨(ih e he).1 (hg e he).1 d (hdl e he).1, e.1.vsize_eq,
          size_pos e.1, hh e he⟩
        val := fun e he => ⟨(ih e he).2 (hg e he).2 d (hdl e he).2, e.2.vsize_eq, size_pos e.2⟩
        nodup := hn
        small := by rw [← vsizeMap_eq]; exact hs }
    obtain ⟨c, w, e, hc, hr⟩ := g.reads env
    have e' : (Variant.map m).venc = c :: w := by
      rw [← e]; simp only [Variant.venc, vsizeMap_eq, vencMap_eq]
    rw [e']
    intro more
    show decVariant env (d + 1) c (w ++ more) = _
    have e2 : decVariant env (d + 1) c =
        Variant.map <$> decodeMapWith (decVar env d) (decVar env d) env c := by
      rcases hc with rfl | rfl <;> rfl
    rw [e2]
    exact map_ok (hr more)
  | described ds v ih =>
    intro d hdep
    simp only [Variant.Good] at h
    simp only [Variant.depth] at hdep
    obtain ⟨d, rfl⟩ : ∃ d', d = d' + 1 := ⟨d - 1, by omega⟩
    have h1 := ih h.2 d (by omega)
    intro more
    simp only [Variant.venc, Descriptor.enc_eq]
    show decVariant env (d + 1) FC.described (ds.body ++ v.venc ++ more) = _
    have := Reads.bind (reads_descriptor env ds h.1) (f := fun ds => decVar env d >>= fun v =>
      pure (Variant.described ds v)) (Reads.bind h1 (Reads.pure _)) more
    rw [List.append_nil] at this
    exact this

/-- Round-trippable variants within the recursion budget. -/
instance : HasWf Variant := ⟨fun env v => v.Good ∧ v.depth ≤ env.stackDepth⟩
instance : LawfulCodec Variant := ⟨fun env v h => reads_variant env v h.1 _ h.2⟩

/-! ### VecVariantMap -/

instance : HasWf VecVariantMap := ⟨fun env m =>
  (∀ e ∈ m.entries, RoundTrips env e.1 ∧ RoundTrips env e.2) ∧ mapContentSize size size m.entries + 4 < 2 ^ 32⟩

theorem mapContent_flatMap {K V : Type} (ke : K → Bytes) (ve : V → Bytes) (l : List (K × V)) :
    mapContent ke ve l = l.flatMap (fun e => ke e.1 ++ ve e.2) := by
  induction l with
  | nil => rfl
  | cons e t ih => obtain ⟨k, v⟩ := e; simp [mapContent, ih]

instance : LawfulCodec VecVariantMap := ⟨fun env m h => by
  have hcnt := mapContentSize_ge (ks := size) (vs := size) m.entries
    (fun e _ => size_pos e.1) (fun e _ => size_pos e.2)
  obtain ⟨c, w, e, hc, hr⟩ := compoundHdr_reads (env := env) (c8 := FC.map8) (c32 := FC.map32)
    (hd := decodeMapHeader env) rfl rfl h.2 hcnt
  have hl := mapContent_length (ks := size) (vs := size) (ke := enc) (ve := enc) m.entries
    (fun e _ => LawfulEnc.size_eq _) (fun e _ => LawfulEnc.size_eq _)
  have hN := Reads.decodeN (d := decodePairs (decode Str env) (decode Variant env))
    (fun e => enc e.1 ++ enc e.2) m.entries (fun e he => by
      have := Reads.bind (show Reads _ _ _ from (h.1 e he).1)
        (f := fun k => decode Variant env >>= fun v => pure (k, v))
        (Reads.bind (show Reads _ _ _ from (h.1 e he).2) (Reads.pure _))
      rw [List.append_nil] at this
      exact this) []
  rw [List.append_nil, ← mapContent_flatMap] at hN
  have := Reads.bind hr (f := fun header => VecVariantMap.mk <$>
    withSlice header.size (decodeN (decodePairs (decode Str env) (decode Variant env))
      (header.count / 2))) (w2 := mapContent enc enc m.entries) (b := m) (by
        rw [Nat.mul_div_cancel _ (by omega)]
        exact (Reads.withSlice hl.symm hN).map VecVariantMap.mk)
  have e' : enc m = c :: (w ++ mapContent enc enc m.entries) := by
    show _ ++ _ = _
    rw [e]; rfl
  rw [e']
  exact reads_decode this⟩

end Amqp
