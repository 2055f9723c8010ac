import Verif.Lemmas.Heap
import Verif.Lemmas.MutatorHeap
import Verif.Lemmas.Encryptor
import Verif.Model.LibraryHeap
/-!
# The library's code on the heap does what its model on values says
-/
namespace Migp
open Spec HM
open Mutator (makeBytes_length)

theorem serialize_sim {M : Memory} {u p : Slice} {ub pb : Bytes} (su : Shows M u ub) (sp : Shows M p pb) :
    Sim M (NewSlice M) M (serializeUsernamePasswordH u p) (serializeUsernamePassword ub pb) := by
  have k := Kept.refl M
  unfold serializeUsernamePasswordH serializeUsernamePassword
  rw [← su.len, ← sp.len]
  split
  · exact ⟨k, rfl⟩
  · refine Sim.make k fun a fr => ?_
    refine Sim.putUint16_0 (makeBytes_length _) fr fun b1 _ l1 => ?_
    refine Sim.copySliceAt l1 fr (su.mono (fr.upd _)) fun b2 _ l2 => ?_
    refine Sim.putUint16At l2 fr fun b3 _ l3 => ?_
    rw [Res.bind_ok (copyAt _ _ _)]
    exact Sim.copySliceAt l3 fr (sp.mono (fr.upd _)) fun b4 _ l4 => Sim.ret_new l4 fr

theorem bucketHash_sim (E : Ext) (bh : BucketHasher) {M : Memory} {sl : Slice} {b : Bytes} (s : Shows M sl b) :
    Sim M (NewSlice M) M (bh.hashH E sl) (bh.hash E b) := by
  have k := Kept.refl M
  obtain ⟨salt⟩ := bh
  unfold BucketHasher.hashH BucketHasher.hash
  dsimp only
  rw [← s.len]
  split
  · exact ⟨k, rfl⟩
  · refine Sim.make k fun a fr => ?_
    refine Sim.putUint16_0 (makeBytes_length _) fr fun b1 _ l1 => ?_
    refine Sim.copyBytesAt l1 fr fun b2 _ l2 => ?_
    refine Sim.putUint16At l2 fr fun b3 _ l3 => ?_
    refine Sim.copySliceAt l3 fr (s.mono (fr.upd _)) fun b4 _ l4 => ?_
    refine Sim.load (b := b4) ?_ (Sim.new_ret (fr.upd _))
    rw [← l4]; exact shows_new M a b4

theorem slowHash_sim (E : Ext) (sh : SlowHasher) {M : Memory} {sl : Slice} {b : Bytes} (s : Shows M sl b) :
    Sim M (SlowHashed sh M sl) M (sh.hashH E sl) (sh.hash E b) := by
  have k := Kept.refl M
  cases sh with
  | null => exact ⟨k, s, fun _ => rfl, fun h => absurd rfl h⟩
  | scrypt salt N r p L =>
    refine Sim.load (f := fun b => match scryptKey E b salt N r p L with
      | .ok t => new t | .err _ => HM.panic .scryptParams | .panic x => HM.panic x) s ?_
    unfold SlowHasher.hash
    dsimp only
    cases scryptKey E b salt N r p L with
    | ok t =>
      exact Sim.mono k (Sim.new_ret k) fun M' a c _ n => ⟨n.shows, fun h => (by cases h), fun _ => n⟩
    | err e => exact ⟨k, rfl⟩
    | panic x => exact ⟨k, rfl⟩

theorem _root_.Migp.Spec.SlowHashed.new {sh : SlowHasher} {M0 M M' : Memory} {sl sl' : Slice} {b c : Bytes}
    (k : Kept M0 M) (k' : Kept M M') (n : NewSlice M0 M sl c) (s : SlowHashed sh M sl M' sl' b) :
    NewSlice M0 M' sl' b := by
  by_cases hs : sh = .null
  · have n' := n.mono k'
    rw [← s.2.1 hs] at n'
    exact ⟨n'.1, n'.2.1, s.1⟩
  · exact (s.2.2 hs).weaken k

theorem bucketHashToID_sim {M : Memory} {sl : Slice} {b : Bytes} (s : Shows M sl b) (bits : Int) :
    Sim M (fun _ x y => x = y) M (bucketHashToIDH sl bits) (bucketHashToID b bits) :=
  Sim.load (f := fun b => lift (bucketHashToID b bits)) s (Sim.lift_ret (Kept.refl M))

theorem xorLoop_sim {γ δ : Type} {M0 M : Memory} {R' : Memory → γ → δ → Prop} {x : Nat} {f : Unit → HM γ} {r : Res δ}
    {s1 s2 : Slice} {b1 b2 : Bytes} (fr : Fresh M0 M x) (h1 : Shows M s1 b1) (h2 : Shows M s2 b2)
    (hl : b1.length = b2.length) : ∀ (n i : Nat) (c : Bytes), c.length = b1.length → i + n = b1.length →
      Sim M0 R' (M.upd x (c.take i ++ (List.zipWith (· ^^^ ·) b1 b2).drop i)) (f ()) r →
      Sim M0 R' (M.upd x c) (xorLoopH s1 s2 (newBuf x b1.length) i n >>= f) r
  | 0, i, c, hc, hi, t => by
    rw [List.take_of_length_le (by omega), List.drop_eq_nil_of_le (by simp; omega), List.append_nil] at t
    exact t
  | n + 1, i, c, hc, hi, t => by
    have hi1 : i < b1.length := by omega
    have hi2 : i < b2.length := by omega
    unfold xorLoopH
    have s1' := h1.mono (Kept.upd fr.none c)
    have s2' := h2.mono (Kept.upd fr.none c)
    refine Safe.bind_iff.mpr ?_
    unfold getIdx
    rw [if_pos (by rw [← h1.len]; exact hi1), if_pos (by rw [← h2.len]; exact hi2)]
    refine ⟨b1[i], ?_, b2[i], ?_, ?_⟩
    · rw [s1'.2.2 i (by rw [← h1.len]; exact hi1), List.getElem?_eq_getElem hi1]
    · rw [s2'.2.2 i (by rw [← h2.len]; exact hi2), List.getElem?_eq_getElem hi2]
    show Safe M0 (setIdx (newBuf x b1.length) i (b1[i] ^^^ b2[i]) >>= fun _ =>
      xorLoopH s1 s2 (newBuf x b1.length) (i + 1) n) _ _
    have e0 : setIdx (newBuf x b1.length) i (b1[i] ^^^ b2[i]) =
        HM.write x i (b1[i] ^^^ b2[i]) (Pure.pure ()) := by
      unfold setIdx newBuf
      dsimp only
      rw [if_pos hi1, Nat.zero_add]
    rw [e0]
    refine ⟨c, Memory.upd_self .., by omega, fr.old, ?_⟩
    rw [Memory.upd_upd]
    refine Safe.bind_iff.mp (xorLoop_sim fr h1 h2 hl n (i + 1) _ (by simp; exact hc) (by omega) ?_)
    have e : (c.set i (b1[i] ^^^ b2[i])).take (i + 1) ++ (List.zipWith (· ^^^ ·) b1 b2).drop (i + 1) =
        c.take i ++ (List.zipWith (· ^^^ ·) b1 b2).drop i := by
      rw [List.drop_eq_getElem_cons (i := i) (by simp; omega), List.getElem_zipWith,
        List.take_succ_eq_append_getElem (by simp; omega), List.getElem_set_self,
        List.take_set_of_le (by omega)]
      simp
    rw [e]; exact t

theorem xorBytes_sim {M : Memory} {s1 s2 : Slice} {b1 b2 : Bytes} (h1 : Shows M s1 b1) (h2 : Shows M s2 b2) :
    Sim M (NewSlice M) M (xorBytesH s1 s2) (xorBytes b1 b2) := by
  have k := Kept.refl M
  unfold xorBytesH xorBytes
  rw [← h1.len, ← h2.len]
  by_cases hl : b1.length ≠ b2.length
  · rw [if_pos hl, if_pos hl]; exact ⟨k, rfl⟩
  · rw [if_neg hl, if_neg hl]
    push Not at hl
    refine Sim.make k fun x fr => ?_
    refine xorLoop_sim fr h1 h2 hl b1.length 0 (makeBytes b1.length) (makeBytes_length _) (by omega) ?_
    rw [List.take_zero, List.drop_zero, List.nil_append]
    exact Sim.ret_new (by simp; omega) fr

theorem derivePad_sim (E : Ext) {M : Memory} {s : Slice} {b : Bytes} (hs : Shows M s b) (salt : Bytes) (n : Nat) :
    Sim M (NewSlice M) M (derivePadH E s salt n) (derivePad E b salt n) := by
  have k := Kept.refl M
  unfold derivePadH derivePad
  refine Sim.load hs ?_
  refine Sim.make k fun x fr => ?_
  unfold hkdfReadH
  have hn : (newBuf x n).len = n := rfl
  rw [hn]
  cases hr : hkdfNewRead E.sha256 b salt n with
  | err e => exact ⟨fr.upd _, rfl⟩
  | panic p => exact ⟨fr.upd _, rfl⟩
  | ok y =>
    obtain ⟨m, c⟩ := y
    have hc : c.length = n := by
      unfold hkdfNewRead at hr
      dsimp only at hr
      split at hr
      · cases hr
      · cases hr; exact hkdfFill_length E _ _ _ _ _
    rw [Res.ok_bind]
    dsimp only
    refine Safe.bind_iff.mpr (Safe.writeFrom fr.old _ 0 _ ?_ ?_)
    · rw [makeBytes_length, List.length_take, hn]; omega
    · rw [hn]
      have e : overwrite (makeBytes n) 0 (c.take n) = c := by
        unfold overwrite
        rw [List.take_zero, List.nil_append, List.take_of_length_le (by omega), hc,
          List.drop_eq_nil_of_le (by rw [makeBytes_length]; omega), List.append_nil]
      rw [e]
      show Sim M (NewSlice M) (M.upd x c) (if m ≠ n then HM.err .hkdfShort else Pure.pure (newBuf x n)) _
      by_cases hm : m ≠ n
      · rw [if_pos hm, if_pos hm]; exact ⟨fr.upd _, rfl⟩
      · rw [if_neg hm, if_neg hm]; exact Sim.ret_new hc fr

theorem encrypt_sim (E : Ext) (enc : BucketEncryptor) (flag : MetadataType) {M : Memory} {s m : Slice}
    {sb mb : Bytes} (hs : Shows M s sb) (hm : Shows M m mb) :
    Sim M (NewSlice M) M (enc.encryptH E s flag m) (enc.encrypt E sb flag mb) := by
  have k := Kept.refl M
  cases enc
  unfold BucketEncryptor.encryptH BucketEncryptor.encrypt
  dsimp only
  rw [← hm.len]
  refine Sim.bind k (derivePad_sim E hs _ _) fun M1 pad padb k1 n1 => ?_
  refine Sim.make k1 fun x fr => ?_
  refine Sim.setIdx (makeBytes_length _) fr fun hdr _ l1 => ?_
  have k2 : Kept M1 (M1.upd x hdr) := Kept.upd fr.none _
  have sh : Shows (M1.upd x hdr) (newBuf x (CtxtKeyCheckSize + 1)) hdr := by
    rw [← l1]; exact shows_new M1 x hdr
  refine Sim.bind (k1.trans k2) (xorBytes_sim sh (n1.shows.mono k2)) fun M3 eh ehb k3 n3 => ?_
  have k03 := (k1.trans k2).trans k3
  refine Sim.bind k03 (derivePad_sim E (hs.mono k03) _ _) fun M4 bp bpb k4 n4 => ?_
  have k04 := k03.trans k4
  refine Sim.bind k04 (xorBytes_sim (hm.mono k04) n4.shows) fun M5 eb ebb k5 n5 => ?_
  have k05 := k04.trans k5
  have s3 : Shows M5 eh ehb := n3.shows.mono (k4.trans k5)
  rw [← s3.len, ← n5.shows.len]
  refine Sim.make k05 fun y fr5 => ?_
  have kk : ∀ t, Kept M5 (M5.upd y t) := Kept.upd fr5.none
  refine Sim.copySlice0 (makeBytes_length _) fr5 (s3.mono (kk _)) fun b1 _ l1 => ?_
  refine Sim.putUint32At l1 fr5 fun b2 _ l2 => ?_
  rw [Res.bind_ok (copyAt _ _ _)]
  exact Sim.copySliceAt l2 fr5 (n5.shows.mono (kk _)) fun b3 _ l3 => Sim.ret_new l3 fr5

theorem Sim.and_value {α β : Type} {M0 M : Memory} {R : Memory → α → β → Prop} {m : HM α} {r : Res β} {Q : β → Prop}
    (s : Sim M0 R M m r) (q : ∀ b, r = .ok b → Q b) : Sim M0 (fun M' a b => R M' a b ∧ Q b) M m r := by
  refine Safe.post ?_ s
  rintro M' x ⟨k, h⟩
  refine ⟨k, ?_⟩
  cases x <;> cases r <;> first | exact h | exact ⟨h, q _ rfl⟩

theorem decryptHeader_sim (E : Ext) (enc : BucketEncryptor) {M : Memory} {s c : Slice}
    {sb cb : Bytes} (hs : Shows M s sb) (hc : Shows M c cb) :
    Sim M (fun _ x y => x = y) M (enc.decryptHeaderH E s c) (enc.decryptHeader E sb cb) := by
  have k := Kept.refl M
  cases enc
  unfold BucketEncryptor.decryptHeaderH BucketEncryptor.decryptHeader
  dsimp only
  rw [← hc.len]
  by_cases hl : cb.length < HeaderSize
  · rw [if_pos hl, if_pos hl]; exact ⟨k, rfl⟩
  · rw [if_neg hl, if_neg hl]
    have hl' : HeaderSize ≤ cb.length := by omega
    unfold HeaderSize CtxtKeyCheckSize at hl'
    refine Sim.bind k (Sim.and_value (Q := fun b => b.length = CtxtKeyCheckSize + 1)
      (derivePad_sim E hs DerivePadHeaderSalt (CtxtKeyCheckSize + 1)) fun b hb => ?_) fun M1 pad padb k1 n1 => ?_
    · rw [derivePad_ok E sb _ _ (by decide)] at hb
      rw [← Res.ok.inj hb]
      exact hkdf_length E _ _ _ (by decide)
    have hc1 := hc.mono k1
    obtain ⟨n1, lp⟩ := n1
    refine Sim.reslice k1 n1.shows (by rw [lp]; decide) fun pk _ _ _ spk => ?_
    refine Sim.reslice k1 hc1 (by unfold CtxtKeyCheckSize; omega) fun ck _ _ _ sck => ?_
    refine Sim.load spk (Sim.load sck ?_)
    refine Sim.getIdx k1 n1.shows fun pf _ => ?_
    refine Sim.getIdx k1 hc1 fun cf _ => ?_
    refine Sim.reslice k1 hc1 (by unfold CtxtKeyCheckSize; omega) fun lb _ _ _ slb => ?_
    refine Sim.load slb ?_
    exact Sim.lift k1 fun a _ => Sim.pure k1 rfl

theorem decryptBody_sim (E : Ext) (enc : BucketEncryptor) {M : Memory} {s c : Slice}
    {sb cb : Bytes} (hs : Shows M s sb) (hc : Shows M c cb) :
    Sim M (NewSlice M) M (enc.decryptBodyH E s c) (enc.decryptBody E sb cb) := by
  have k := Kept.refl M
  cases enc
  unfold BucketEncryptor.decryptBodyH BucketEncryptor.decryptBody
  dsimp only
  rw [← hc.len]
  refine Sim.bind k (derivePad_sim E hs _ _) fun M1 pad padb k1 n1 => ?_
  exact Sim.mono k1 (xorBytes_sim (hc.mono k1) n1.shows) fun M' a b _ n => n.weaken k1

theorem deriveKey_sim (E : Ext) (s : Server) {M : Memory} {u p : Slice} {ub pb : Bytes} (hu : Shows M u ub)
    (hp : Shows M p pb) :
    Sim M (NewSlice M) M (s.deriveBucketEntryKeyH E u p) (s.deriveBucketEntryKey E ub pb) := by
  have k := Kept.refl M
  unfold Server.deriveBucketEntryKeyH Server.deriveBucketEntryKey
  refine Sim.bind k (serialize_sim hu hp) fun M1 ser serb k1 n1 => ?_
  refine Sim.bind k1 (slowHash_sim E s.slowHasher n1.shows) fun M2 i ib k2 n2 => ?_
  refine Sim.load n2.1 ?_
  have := Sim.lift (r := s.suite.fullEvaluate s.privateKey ib OprfInfo) (R' := NewSlice M)
    (f := fun key => new key) (g := fun a => Res.ok a) (k1.trans k2)
    fun a _ => Sim.new_ret (k1.trans k2)
  rw [← Res.bind_ok] at this
  exact this

theorem bucketID_sim (E : Ext) (bh : BucketHasher) (bits : Int) {M : Memory} {u : Slice} {ub : Bytes}
    (hu : Shows M u ub) :
    Sim M (fun _ x y => x = y) M (bh.hashH E u >>= fun x => bucketHashToIDH x bits)
      (bh.hash E ub >>= fun x => bucketHashToID x bits) := by
  refine Sim.bind (Kept.refl M) (bucketHash_sim E bh hu) fun M1 x xb k1 n1 => ?_
  exact Sim.mono k1 (bucketHashToID_sim n1.shows bits) fun _ _ _ _ e => e

theorem encryptBucketEntry_sim (E : Ext) (s : Server) (flag : MetadataType) {M : Memory} {u p m : Slice}
    {ub pb mb : Bytes} (hu : Shows M u ub) (hp : Shows M p pb) (hm : Shows M m mb) :
    Sim M (NewSlice M) M (s.encryptBucketEntryH E u p flag m) (s.encryptBucketEntry E ub pb flag mb) := by
  have k := Kept.refl M
  unfold Server.encryptBucketEntryH Server.encryptBucketEntry
  split
  · exact ⟨k, rfl⟩
  · refine Sim.bind k (deriveKey_sim E s hu hp) fun M1 key keyb k1 n1 => ?_
    exact Sim.mono k1 (encrypt_sim E _ flag n1.shows (hm.mono k1)) fun _ _ _ _ n => n.weaken k1

theorem request_sim (E : Ext) (c : Client) (blind : ZMod c.suite.q) {M : Memory} {u p : Slice} {ub pb : Bytes}
    (hu : Shows M u ub) (hp : Shows M p pb) :
    Sim M (Requested M) M (c.requestH E u p blind) (c.request E ub pb blind) := by
  have k := Kept.refl M
  unfold Client.requestH Client.request
  refine Sim.bind k (serialize_sim hu hp) fun M1 ser serb k1 n1 => ?_
  refine Sim.bind k1 (slowHash_sim E c.slowHasher n1.shows) fun M2 i ib k2 n2 => ?_
  refine Sim.load n2.1 ?_
  have ni : NewSlice M M2 i ib := n2.new k1 k2 n1
  refine Sim.new fun x hx nb => ?_
  have k3 : Kept M2 (M2.upd x (c.suite.blind ib blind)) := Kept.upd hx _
  have k03 := (k1.trans k2).trans k3
  refine Sim.bind k03 (bucketID_sim E c.bucketHasher c.bucketIDBitSize (hu.mono k03)) fun M4 id id' k4 e => ?_
  subst e
  exact Sim.pure (k03.trans k4) ⟨rfl, rfl, (nb.mono k4).weaken (k1.trans k2), rfl,
    (ni.mono k3).mono k4, HEq.rfl⟩

theorem _root_.Migp.Spec.Finalized.weaken {M0 M M' : Memory} {x : FinalizeH} {y : BreachStatus × Option Bytes × Option Err}
    (k : Kept M0 M) (f : Finalized M M' x y) : Finalized M0 M' x y := by
  obtain ⟨h1, h2, h3⟩ := f
  refine ⟨h1, h2, ?_⟩
  revert h3
  cases x.metadata <;> cases y.2.1 <;> first | exact fun h => h | exact fun n => n.weaken k

theorem finalizeLoop_sim (E : Ext) (enc : BucketEncryptor) {M0 : Memory} {s c : Slice} {sb cb : Bytes}
    (hs : Shows M0 s sb) (hc : Shows M0 c cb) (offset : Nat) (M : Memory) (k : Kept M0 M) :
    Sim M0 (Finalized M0) M (finalizeLoopH E enc s c offset) (finalizeLoop E enc sb cb offset).toRes := by
  have hl := hc.len
  rw [finalizeLoopH, finalizeLoop]
  by_cases h1 : offset + HeaderSize > cb.length
  · rw [dif_pos (hl ▸ h1), dif_pos h1]
    exact ⟨k, rfl, rfl, trivial⟩
  · rw [dif_neg (hl ▸ h1), dif_neg h1]
    have sd : Sim M (fun _ x y => x = y) M (resliceFrom c offset >>= (enc.decryptHeaderH E s ·))
        (sliceFrom cb offset >>= (enc.decryptHeader E sb ·)) :=
      Sim.resliceFrom (Kept.refl M) (hc.mono k) fun sl' _ _ _ s' =>
        decryptHeader_sim E enc (hs.mono k) s'
    refine Sim.attempt k sd (fun M1 a b hv k1 e => ?_) (fun M1 e hv k1 => ?_) fun p hv => ?_
    · subst e
      rw [hv]
      have kk := k.trans k1
      obtain ⟨valid, flag, bl⟩ := a
      dsimp only
      by_cases h2 : offset + HeaderSize + bl > cb.length
      · rw [if_pos (hl ▸ h2), if_pos h2]
        exact ⟨kk, rfl, rfl, trivial⟩
      · rw [if_neg (hl ▸ h2), if_neg h2]
        cases valid with
        | false =>
          rw [if_neg Bool.false_ne_true, if_neg Bool.false_ne_true]
          exact finalizeLoop_sim E enc hs hc _ M1 kk
        | true =>
          rw [if_pos rfl, if_pos rfl]
          have sb' : Sim M1 (NewSlice M1) M1
              (reslice c (offset + HeaderSize) (offset + HeaderSize + bl) >>= (enc.decryptBodyH E s ·))
              (slice cb (offset + HeaderSize) (offset + HeaderSize + bl) >>= (enc.decryptBody E sb ·)) :=
            Sim.reslice (Kept.refl M1) (hc.mono kk) (by omega) fun sl' _ _ _ s' =>
              decryptBody_sim E enc (hs.mono kk) s'
          refine Sim.attempt kk sb' (fun M2 a b hv2 k2 n => ?_) (fun M2 e hv2 k2 => ?_) fun p hv2 => ?_
          · rw [hv2]
            exact ⟨kk.trans k2, rfl, rfl, n.weaken kk⟩
          · rw [hv2]
            exact ⟨kk.trans k2, rfl, rfl, trivial⟩
          · rw [hv2]; rfl
    · rw [hv]
      exact ⟨k.trans k1, rfl, rfl, trivial⟩
    · rw [hv]; rfl
termination_by cb.length - offset
decreasing_by
  simp only [HeaderSize, CtxtKeyCheckSize] at *
  omega

theorem finalize_sim (E : Ext) {M : Memory} {ctx : ClientRequestContextH} {ctxv : ClientRequestContext}
    {resp : ServerResponseH} {respv : ServerResponse} (hx : ContextShows M ctx ctxv)
    (hr : ResponseShows M resp respv) :
    Sim M (Finalized M) M (ctx.finalizeH E resp) (ctxv.finalize E respv).toRes := by
  have k := Kept.refl M
  obtain ⟨c, i, bl⟩ := ctx
  obtain ⟨cv, iv, blv⟩ := ctxv
  obtain ⟨e1, hi, e2⟩ := hx
  dsimp only at e1 hi e2
  subst e1
  have e2 := eq_of_heq e2
  subst e2
  unfold ClientRequestContextH.finalizeH ClientRequestContext.finalize
  dsimp only
  rw [hr.version]
  by_cases hv : UInt16.ofNat respv.version.toNat ≠ c.version
  · rw [if_pos hv, if_pos hv]; exact ⟨k, rfl, rfl, trivial⟩
  · rw [if_neg hv, if_neg hv]
    refine Sim.load hi (Sim.load hr.evaluatedElement ?_)
    cases c.suite.clientFinalize iv bl respv.evaluatedElement OprfInfo with
    | panic p => exact ⟨k, rfl⟩
    | err e => exact ⟨k, rfl, rfl, trivial⟩
    | ok secret =>
      refine Sim.new fun x hx n => ?_
      have k1 : Kept M (M.upd x secret) := Kept.upd hx _
      exact Sim.mono k1 (finalizeLoop_sim E _ n.shows (hr.bucketContents.mono k1) 0 _ (Kept.refl _))
        fun _ _ _ _ f => f.weaken k1

theorem handleRequest_sim (s : Server) {M : Memory} {req : ClientRequestH} {reqv : ClientRequest}
    (hr : RequestShows M req reqv) (store : GoString → Slice) (kv : KV)
    (hk : ∀ id, Shows M (store id) (kv.store id)) :
    Sim M (Handled M (store req.bucketID)) M (s.handleRequestH req (fun id => pure (store id)))
      (s.handleRequest reqv kv.get) := by
  have k := Kept.refl M
  unfold Server.handleRequestH Server.handleRequest
  rw [hr.version, hr.bucketID]
  split
  · exact ⟨k, rfl⟩
  · refine Sim.load hr.blindElement ?_
    refine Sim.lift k fun ev _ => ?_
    refine Sim.new fun x hx n => ?_
    have k1 : Kept M (M.upd x ev) := Kept.upd hx _
    cases hexDecode reqv.bucketID with
    | none => exact ⟨k1, rfl⟩
    | some _ =>
      exact Sim.pure (b := (⟨reqv.version, ev, kv.store reqv.bucketID⟩ : ServerResponse)) k1
        ⟨rfl, n, (hk _).mono k1, rfl⟩

theorem marshalBinary_sim {M : Memory} {r : ServerResponseH} {rv : ServerResponse} (hr : ResponseShows M r rv) :
    Sim M (NewSlice M) M r.marshalBinaryH rv.marshalBinary := by
  unfold ServerResponseH.marshalBinaryH ServerResponse.marshalBinary
  rw [hr.version]
  refine Sim.load hr.evaluatedElement ?_
  refine Sim.load hr.bucketContents ?_
  exact Sim.new_ret (Kept.refl M)

end Migp
