import Verif.Spec.Sent
import Verif.Proofs.VariantExact
import Verif.Proofs.Lenient
import Verif.Proofs.Crashes
/-!
# What becomes of a value on its way: the induction
-/
set_option autoImplicit false
namespace Amqp
open Dec

theorem natAbs_mul_million {x : Int} (h : 0 ≤ x) :
    (x * 1000000).natAbs = x.toNat * 1000000 := by omega

theorem utcTimestamp_answer (s : Int) (n : Nat) (rest : Bytes) :
    (pointOfTime s n).Answer rest (utcTimestamp s n rest) := by
  unfold pointOfTime utcTimestamp
  split
  · exact rfl
  · exact rfl

theorem sent_datetime (env : Env) (t : DateTime) (rest : Bytes) :
    t.sent.Answer rest (decode DateTime env (enc t ++ rest)) := by
  have e : enc t = timestampWire (Int64.ofInt t.millis) := rfl
  rw [e, decode_timestamp, toInt64_ofInt t.millis_bounds.1 t.millis_bounds.2,
    datetimeFromMillis_eq]
  have hm : t.millis = t.secs * 1000 + ((t.nanos / 1000000 : Nat) : Int) := rfl
  simp only [DateTime.sent, ← hm]
  split
  · rw [natAbs_mul_million (by omega)]; exact utcTimestamp_answer ..
  · split
    · rw [natAbs_mul_million (by omega)]; exact utcTimestamp_answer ..
    · rw [natAbs_mul_million (by omega)]; exact utcTimestamp_answer ..

theorem Fate.Answer.bind {α β : Type} {s : Fate α} {f : α → Fate β} {d : Dec α}
    {g : α → Dec β} {i rest rest' : Bytes} (h : s.Answer rest (d i))
    (hf : ∀ a, s = .arrives a → (f a).Answer rest' (g a rest)) :
    (s.andThen f).Answer rest' ((d >>= g) i) := by
  cases s with
  | arrives a =>
    have h : d i = .ok (rest, a) := h
    rw [bind_ok h]; exact hf a rfl
  | refused =>
    obtain ⟨e, h⟩ := h
    exact ⟨e, by rw [run_bind, h]⟩
  | crashes p =>
    have h : d i = .panic p := h
    show (d >>= g) i = .panic p
    rw [run_bind, h]

theorem Fate.Answer.map {α β : Type} {s : Fate α} {f : α → β} {d : Dec α}
    {i rest : Bytes} (h : s.Answer rest (d i)) :
    (s.andThen fun a => .arrives (f a)).Answer rest ((f <$> d) i) := by
  cases s with
  | arrives a => exact map_eq_ok.2 ⟨a, h, rfl⟩
  | refused =>
    obtain ⟨e, h⟩ := h
    exact ⟨e, by show (d >>= _) i = _; rw [run_bind, h]⟩
  | crashes p =>
    have h : d i = .panic p := h
    show (d >>= _) i = .panic p
    rw [run_bind, h]

/-- What a decoder with room for `d` levels makes of an encoded value. -/
def SentAt (env : Env) (d : Nat) (v : Variant) : Prop :=
  ∀ rest, (v.sent d).Answer rest (decVar env d (v.venc ++ rest))

theorem sent_entries {env : Env} {d : Nat} : ∀ {l acc : List (Variant × Variant)},
    (∀ e ∈ l, SentAt env d e.1 ∧ SentAt env d e.2) →
    ((sentMap d l).andThen fun l => .arrives (insertAll acc l)).Answer []
      (mapLoop (decVar env d) (decVar env d) l.length acc (vencMap l))
  | [], acc, _ => by simp only [sentMap]; exact rfl
  | (k, v) :: t, acc, h => by
    obtain ⟨hk, hv⟩ := h (k, v) (by simp)
    have ih := fun acc => sent_entries (acc := acc) fun e he => h e (List.mem_cons_of_mem _ he)
    simp only [vencMap, sentMap, List.append_assoc, List.length_cons]
    have e1 : ∀ {α β γ : Type} (s : Fate α) (f : α → Fate β) (g : β → Fate γ),
        (s.andThen f).andThen g = s.andThen fun a => (f a).andThen g := by
      intro α β γ s f g; cases s <;> rfl
    rw [e1]
    unfold mapLoop
    refine Fate.Answer.bind (hk (v.venc ++ vencMap t)) fun k' _ => ?_
    rw [e1]
    refine Fate.Answer.bind (hv (vencMap t)) fun v' _ => ?_
    cases hh : k'.holdsMap with
    | true =>
      have : HKey.hashOk k' = false := by
        show k'.hashOk = false
        rw [hashOk_eq, hh]; rfl
      rw [if_pos rfl, if_neg (by rw [this]; exact nofun)]
      exact rfl
    | false =>
      have : HKey.hashOk k' = true := by
        show k'.hashOk = true
        rw [hashOk_eq, hh]; rfl
      rw [if_neg nofun, if_pos this, e1]
      exact ih _

theorem sentMap_hash {d : Nat} : ∀ {l m : List (Variant × Variant)},
    sentMap d l = .arrives m → ∀ e ∈ m, e.1.holdsMap = false
  | [], m, h => by simp only [sentMap] at h; injection h with h; subst h; simp
  | (k, v) :: t, m, h => by
    simp only [sentMap] at h
    cases hk : k.sent d with
    | refused => rw [hk] at h; cases h
    | crashes p => rw [hk] at h; cases h
    | arrives k' =>
      rw [hk] at h
      cases hv : v.sent d with
      | refused => rw [hv] at h; cases h
      | crashes p => rw [hv] at h; cases h
      | arrives v' =>
        rw [hv] at h
        simp only [Fate.andThen] at h
        split at h
        · cases h
        · next hn =>
          cases ht : sentMap d t with
          | refused => rw [ht] at h; cases h
          | crashes p => rw [ht] at h; cases h
          | arrives l =>
            rw [ht] at h
            injection h with h
            subst h
            intro e he
            rcases List.mem_cons.1 he with rfl | he
            · simpa using hn
            · exact sentMap_hash ht e he

theorem sent_leaf {env : Env} {v : Variant} {d : Nat} (h : v.Survives) (hs : v.vsize < 2 ^ 32)
    (hd : v.depth ≤ d) (rest : Bytes) :
    (Fate.arrives v).Answer rest (decVar env d (v.venc ++ rest)) :=
  reads_variant env v (h.good v hs) d hd rest

theorem venc_cons (v : Variant) : ∃ c t, v.venc = c :: t := by
  have h : 0 < size v := size_pos v
  have hl : v.venc.length = size v := (v.vsize_eq).symm
  cases hv : v.venc with
  | nil => rw [hv] at hl; simp at hl; omega
  | cons c t => exact ⟨c, t, rfl⟩

theorem sent_zero (env : Env) (v : Variant) : SentAt env 0 v := by
  intro rest
  obtain ⟨c, t, e⟩ := venc_cons v
  rw [e]
  simp only [Variant.sent]
  exact rfl

theorem sent_variant (env : Env) (v : Variant) (hs : v.vsize < 2 ^ 32) : ∀ d, SentAt env d v := by
  induction v using Variant.ind with
  | leaf v hl hm hd =>
    intro d rest
    cases d with
    | zero => exact sent_zero env v rest
    | succ d =>
      cases v with
      | list l => exact absurd rfl (hl l)
      | map m => exact absurd rfl (hm m)
      | described d w => exact absurd rfl (hd d w)
      | timestamp t =>
        simp only [Variant.sent]
        show (t.sent.andThen fun t => Fate.arrives (Variant.timestamp t)).Answer rest
          ((Variant.timestamp <$> decF env FC.timestamp)
            (beEnc 8 (Int64.ofInt t.millis).toUInt64.toNat ++ rest))
        exact Fate.Answer.map (sent_datetime env t rest)
      | staticSymbol s =>
        have hl : s.bytes.length < 2 ^ 32 :=
          Nat.lt_of_le_of_lt (varSize_ge s.bytes.length) hs
        have := reads_variant env (.symbol ⟨s⟩) (by simp only [Variant.Good]; exact hl) (d + 1)
          (by simp [Variant.depth]) rest
        simp only [Variant.sent]
        exact this
      | _ =>
        simp only [Variant.sent]
        exact sent_leaf (by simp only [Variant.Survives]) hs (by simp [Variant.depth]) rest
  | list l ih =>
    intro d rest
    cases d with
    | zero => exact sent_zero env _ rest
    | succ d =>
      simp only [Variant.sent]
      obtain ⟨c, t, e, hc⟩ := compoundHdr_head FC.array8 FC.array32 (vsizeList l) l.length
        (vencList l)
      rw [show (Variant.list l).venc = c :: t from e]
      rcases hc with rfl | rfl <;> exact ⟨_, rfl⟩
  | map m ih =>
    intro d rest
    cases d with
    | zero => exact sent_zero env _ rest
    | succ d =>
      simp only [Variant.vsize] at hs
      have hc4 := compoundSize_small hs
      have hcnt : m.length * 2 ≤ vsizeMap m := by
        rw [vsizeMap_eq]
        exact mapContentSize_ge m (fun e _ => size_pos e.1) (fun e _ => size_pos e.2)
      obtain ⟨c, w, e, hc, hr⟩ := compoundHdr_reads (env := env) (c8 := FC.map8) (c32 := FC.map32)
        (hd := decodeMapHeader env) rfl rfl hc4 hcnt
      have e' : (Variant.map m).venc = c :: (w ++ vencMap m) := by
        simp only [Variant.venc, e]; rfl
      have e2 : decVariant env (d + 1) c =
          Variant.map <$> decodeMapWith (decVar env d) (decVar env d) env c := by
        rcases hc with rfl | rfl <;> rfl
      rw [e', List.cons_append, decVar_cons, e2]
      have hlen : (vencMap m).length = vsizeMap m := by
        rw [vencMap_eq, vsizeMap_eq]
        exact (mapContent_length m (fun e _ => e.1.vsize_eq) (fun e _ => e.2.vsize_eq)).symm
      have hin : decodeMapWith (decVar env d) (decVar env d) env c ((w ++ vencMap m) ++ rest) =
          withSlice (vsizeMap m) (mapLoop (decVar env d) (decVar env d) (m.length * 2 / 2) [])
            (vencMap m ++ rest) := by
        rw [List.append_assoc]
        exact bind_ok (f := fun header : CompoundHeader => withSlice header.size
          (mapLoop (decVar env d) (decVar env d) (header.count / 2) []))
          (hr (vencMap m ++ rest))
      have hF : ∀ e ∈ m, SentAt env d e.1 ∧ SentAt env d e.2 := by
        intro e he
        have hsz := vsizeMap_mem he
        exact ⟨(ih e he).1 (by omega) d, (ih e he).2 (by omega) d⟩
      have key := sent_entries (acc := []) hF
      have hA : ((sentMap d m).andThen fun l => .arrives (Lenient.merged l)).Answer rest
          (decodeMapWith (decVar env d) (decVar env d) env c ((w ++ vencMap m) ++ rest)) := by
        rw [hin, Nat.mul_div_cancel _ (by omega)]
        unfold withSlice
        rw [if_neg (by simp; omega), List.take_left' hlen, List.drop_left' hlen]
        cases hm : sentMap d m with
        | arrives l =>
          rw [hm] at key
          have key : mapLoop (decVar env d) (decVar env d) m.length [] (vencMap m) =
            .ok ([], insertAll [] l) := key
          rw [key, insertAll_merged l fun e he => by
            show e.1.hashOk = true
            rw [hashOk_eq, sentMap_hash hm e he]; rfl]
          exact rfl
        | refused =>
          rw [hm] at key
          obtain ⟨e, key⟩ := key
          rw [key]; exact ⟨_, rfl⟩
        | crashes p =>
          rw [hm] at key
          have key : mapLoop (decVar env d) (decVar env d) m.length [] (vencMap m) =
            .panic p := key
          rw [key]; exact rfl
      simp only [Variant.sent]
      have := Fate.Answer.map (f := Variant.map) hA
      cases hm : sentMap d m <;> rw [hm] at this <;> exact this
  | described ds v ih =>
    intro d rest
    cases d with
    | zero => exact sent_zero env _ rest
    | succ d =>
      simp only [Variant.vsize] at hs
      simp only [Variant.venc, Descriptor.enc_eq, Variant.sent]
      show Fate.Answer _ rest ((decode Descriptor env >>= fun ds => decVar env d >>= fun v =>
          pure (Variant.described ds v)) ((ds.body ++ v.venc) ++ rest))
      rw [List.append_assoc]
      by_cases h0 : ds = .ulong 0
      · rw [if_pos h0, h0]
        have e0 : (Descriptor.ulong 0).body = [0x44] := by decide
        rw [e0]
        exact ⟨_, rfl⟩
      · rw [if_neg h0]
        have hgood : ds.good := by
          cases ds with
          | ulong n => exact fun e => h0 (by rw [e])
          | symbol s =>
            have h1 : size (Descriptor.symbol s) = 1 + varSize s.str.bytes.length := rfl
            have := varSize_ge s.str.bytes.length
            show s.str.bytes.length < 2 ^ 32
            omega
        rw [bind_ok (reads_descriptor env ds hgood (v.venc ++ rest))]
        exact Fate.Answer.map (f := Variant.described ds) (ih (by omega) d rest)

end Amqp
