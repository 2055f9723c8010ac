import Verif.Model.Cost
/-!
# The functions with their calls have the same results
-/
namespace Migp
open Json Bufio Http

theorem Tr.out_bind {α β : Type} (x : Tr α) (f : α → Tr β) : (x >>= f).out = x.out >>= fun a => (f a).out := by
  show (match x.out with | .ok a => (⟨x.ops ++ (f a).ops, (f a).out⟩ : Tr β) | .err e => ⟨x.ops, .err e⟩ | .panic p => ⟨x.ops, .panic p⟩).out = _
  cases x.out <;> rfl

theorem Tr.out_pure {α : Type} (a : α) : (pure a : Tr α).out = .ok a := rfl
theorem Tr.ops_pure {α : Type} (a : α) : (pure a : Tr α).ops = [] := rfl

theorem Tr.out_lift {α : Type} (r : Res α) : (MonadLift.monadLift r : Tr α).out = r := rfl
theorem Tr.ops_lift {α : Type} (r : Res α) : (MonadLift.monadLift r : Tr α).ops = [] := rfl
theorem Tr.out_liftT {α : Type} (r : Res α) : (liftM r : Tr α).out = r := rfl
theorem Tr.ops_liftT {α : Type} (r : Res α) : (liftM r : Tr α).ops = [] := rfl

theorem Tr.ops_bind_ok {α β : Type} {x : Tr α} {f : α → Tr β} {a : α} (h : x.out = .ok a) :
    (x >>= f).ops = x.ops ++ (f a).ops := by
  show (match x.out with | .ok a => (⟨x.ops ++ (f a).ops, (f a).out⟩ : Tr β) | .err e => ⟨x.ops, .err e⟩ | .panic p => ⟨x.ops, .panic p⟩).ops = _
  rw [h]

theorem Tr.ops_bind_err {α β : Type} {x : Tr α} {f : α → Tr β} {e : Err} (h : x.out = .err e) :
    (x >>= f).ops = x.ops := by
  show (match x.out with | .ok a => (⟨x.ops ++ (f a).ops, (f a).out⟩ : Tr β) | .err e => ⟨x.ops, .err e⟩ | .panic p => ⟨x.ops, .panic p⟩).ops = _
  rw [h]

theorem Tr.ops_bind_panic {α β : Type} {x : Tr α} {f : α → Tr β} {p : Panic} (h : x.out = .panic p) :
    (x >>= f).ops = x.ops := by
  show (match x.out with | .ok a => (⟨x.ops ++ (f a).ops, (f a).out⟩ : Tr β) | .err e => ⟨x.ops, .err e⟩ | .panic p => ⟨x.ops, .panic p⟩).ops = _
  rw [h]

variable (E : Ext)

theorem encryptT_out (enc : BucketEncryptor) (secret : Bytes) (flag : MetadataType) (body : Bytes) :
    (enc.encryptT E secret flag body).out = enc.encrypt E secret flag body := by
  cases enc
  unfold BucketEncryptor.encryptT BucketEncryptor.encrypt
  simp only [Tr.out_bind, Tr.out_liftT]
  rfl

theorem decryptHeaderT_out (enc : BucketEncryptor) (secret ciphertext : Bytes) :
    (enc.decryptHeaderT E secret ciphertext).out = enc.decryptHeader E secret ciphertext := by
  cases enc
  unfold BucketEncryptor.decryptHeaderT BucketEncryptor.decryptHeader
  dsimp only
  by_cases h : ciphertext.length < HeaderSize
  · rw [if_pos h, if_pos h]
  · rw [if_neg h, if_neg h]
    simp only [Tr.out_bind, Tr.out_liftT, Tr.out_pure]
    rfl

theorem decryptBodyT_out (enc : BucketEncryptor) (secret ciphertext : Bytes) :
    (enc.decryptBodyT E secret ciphertext).out = enc.decryptBody E secret ciphertext := by
  cases enc
  unfold BucketEncryptor.decryptBodyT BucketEncryptor.decryptBody
  simp only [Tr.out_bind, Tr.out_liftT]
  rfl

theorem bucketHashT_out (h : BucketHasher) (b : Bytes) : (h.hashT E b).out = h.hash E b := by cases h; rfl

theorem slowHashT_out (h : SlowHasher) (b : Bytes) : (h.hashT E b).out = h.hash E b := by cases h <;> rfl

theorem client_bucketIDT_out (c : Client) (u : Bytes) : (c.bucketIDT E u).out = c.bucketID E u := by
  unfold Client.bucketIDT Client.bucketID
  simp only [Tr.out_bind, Tr.out_liftT, bucketHashT_out]

theorem requestT_out (c : Client) (u p : Bytes) (r : ZMod c.suite.q) : (c.requestT E u p r).out = c.request E u p r := by
  unfold Client.requestT Client.request
  simp only [Tr.out_bind, Tr.out_liftT, slowHashT_out, client_bucketIDT_out, Tr.out_pure, Res.ok_bind]

theorem finalizeLoopT_out (enc : BucketEncryptor) (secret contents : Bytes) (offset : Nat) :
    (finalizeLoopT E enc secret contents offset).2 = finalizeLoop E enc secret contents offset := by
  fun_induction finalizeLoop E enc secret contents offset with
  | case1 offset h => unfold finalizeLoopT; rw [dif_pos h]
  | case2 offset h p hp =>
    unfold finalizeLoopT
    rw [dif_neg h]
    simp only [Tr.out_bind, Tr.out_liftT, decryptHeaderT_out, hp]
  | case3 offset h p hp =>
    unfold finalizeLoopT
    rw [dif_neg h]
    simp only [Tr.out_bind, Tr.out_liftT, decryptHeaderT_out, hp]
  | case4 offset h valid flag bodyLength hp h2 =>
    unfold finalizeLoopT
    rw [dif_neg h]
    simp only [Tr.out_bind, Tr.out_liftT, decryptHeaderT_out, hp]
    rw [if_pos h2]
  | case5 offset h flag bodyLength h2 p h3 hp =>
    unfold finalizeLoopT
    rw [dif_neg h]
    simp only [Tr.out_bind, Tr.out_liftT, decryptHeaderT_out, decryptBodyT_out, hp, h3]
    rw [if_neg h2, if_pos trivial]
  | case6 offset h flag bodyLength h2 p h3 hp =>
    unfold finalizeLoopT
    rw [dif_neg h]
    simp only [Tr.out_bind, Tr.out_liftT, decryptHeaderT_out, decryptBodyT_out, hp, h3]
    rw [if_neg h2, if_pos trivial]
  | case7 offset h flag bodyLength h2 p h3 hp =>
    unfold finalizeLoopT
    rw [dif_neg h]
    simp only [Tr.out_bind, Tr.out_liftT, decryptHeaderT_out, decryptBodyT_out, hp, h3]
    rw [if_neg h2, if_pos trivial]
  | case8 offset h valid flag bodyLength hp h2 h3 ih =>
    unfold finalizeLoopT
    rw [dif_neg h]
    simp only [Tr.out_bind, Tr.out_liftT, decryptHeaderT_out, hp]
    rw [if_neg h2, if_neg (by assumption)]
    exact ih

theorem finalizeT_out (ctx : ClientRequestContext) (resp : ServerResponse) : (ctx.finalizeT E resp).2 = ctx.finalize E resp := by
  unfold ClientRequestContext.finalizeT ClientRequestContext.finalize
  split
  · rfl
  · cases ctx.client.suite.clientFinalize ctx.input ctx.blind resp.evaluatedElement OprfInfo with
    | ok secret => exact finalizeLoopT_out E _ _ _ _
    | err e => rfl
    | panic p => rfl

theorem deriveBucketEntryKeyT_out (s : Server) (u p : Bytes) :
    (s.deriveBucketEntryKeyT E u p).out = s.deriveBucketEntryKey E u p := by
  unfold Server.deriveBucketEntryKeyT Server.deriveBucketEntryKey
  simp only [Tr.out_bind, Tr.out_liftT, slowHashT_out]

theorem server_bucketIDT_out (s : Server) (u : Bytes) : (s.bucketIDT E u).out = s.bucketID E u := by
  unfold Server.bucketIDT Server.bucketID
  simp only [Tr.out_bind, Tr.out_liftT, bucketHashT_out]

theorem encryptBucketEntryT_out (s : Server) (u p : Bytes) (f : MetadataType) (m : Bytes) :
    (s.encryptBucketEntryT E u p f m).out = s.encryptBucketEntry E u p f m := by
  unfold Server.encryptBucketEntryT Server.encryptBucketEntry
  split
  · rfl
  · simp only [Tr.out_bind, deriveBucketEntryKeyT_out, encryptT_out]

theorem handleRequestT_out (s : Server) (req : ClientRequest) (kv : Getter) :
    (s.handleRequestT req kv).out = s.handleRequest req kv := by
  unfold Server.handleRequestT Server.handleRequest
  split
  · rfl
  · simp only [Tr.out_bind]
    congr 1
    funext a
    cases hexDecode req.bucketID with
    | none => rfl
    | some x => simp only [Tr.out_bind, Tr.out_pure]

theorem insertVariantsT_out (s : Server) (u m : Bytes) (id : GoString) (vs : List Bytes) (kv : KV) :
    (insertVariantsT E s u m id vs kv).2 = insertVariants E s u m id vs kv := by
  induction vs generalizing kv with
  | nil => rfl
  | cons v vs ih =>
    unfold insertVariantsT insertVariants
    simp only [encryptBucketEntryT_out]
    cases s.encryptBucketEntry E u v MetadataSimilarPassword m with
    | ok e => exact ih _
    | err e => rfl
    | panic e => rfl

theorem insertUsernameT_out (s : Server) (u m : Bytes) (id : GoString) (b : Bool) (kv : KV) :
    (insertUsernameT E s u m id b kv).2 = insertUsername E s u m id b kv := by
  unfold insertUsernameT insertUsername
  split
  · simp only [encryptBucketEntryT_out]
    cases s.encryptBucketEntry E u [] MetadataBreachedUsername m <;> rfl
  · rfl

theorem insertT_out (s : Server) (u p m : Bytes) (n : Int) (b : Bool) (kv : KV) :
    (insertT E s u p m n b kv).2 = insert E s u p m n b kv := by
  unfold insertT insert
  simp only [server_bucketIDT_out, encryptBucketEntryT_out, insertVariantsT_out]
  generalize Mutator.mutate Mutator.dasRules p n = mv
  cases s.bucketID E u with
  | err e => rfl
  | panic e => rfl
  | ok id =>
    dsimp only
    cases s.encryptBucketEntry E u p MetadataBreachedPassword m with
    | err e => rfl
    | panic e => rfl
    | ok e =>
      dsimp only
      cases mv with
      | err e => rfl
      | panic e => rfl
      | ok vs =>
        dsimp only
        generalize insertVariants E s u m (BucketIDToHex id) vs _ = r
        obtain ⟨kv', r⟩ := r
        cases r with
        | err e => rfl
        | panic e => rfl
        | ok _ => exact insertUsernameT_out E _ _ _ _ _ _

theorem handleEvaluateT_out (s : Server) (kv : KV) (stale : Nat → Nat → UInt8) (body : Option Bytes) :
    (handleEvaluateT s kv stale body).out = handleEvaluate s kv stale body := by
  cases body with
  | none => rfl
  | some body =>
    unfold handleEvaluateT handleEvaluate
    simp only [handleRequestT_out]
    cases s.handleRequest (ClientRequest.unmarshalJSON stale body ClientRequest.zero).1 kv.get with
    | panic p => rfl
    | err e => rfl
    | ok r => rfl

theorem QueryT_out (cfg : Config) (post : Bytes → Transport) (u p : Bytes) (rand : (S : Suite) → ZMod S.q) :
    (QueryT E cfg post u p rand).2 = Query E cfg post u p rand := by
  unfold QueryT Query
  cases NewClient E cfg with
  | panic p => rfl
  | err e => rfl
  | ok c =>
    simp only [requestT_out]
    cases c.request E u p (rand c.suite) with
    | panic p => rfl
    | err e => rfl
    | ok x =>
      obtain ⟨req, ctx⟩ := x
      dsimp only
      cases post req.marshalJSON with
      | failed => rfl
      | reply status body =>
        dsimp only
        split
        · rfl
        · cases body with
          | none => rfl
          | some body =>
            dsimp only
            cases ServerResponse.unmarshalBinary body with
            | panic p => rfl
            | err e => rfl
            | ok r => exact finalizeT_out E _ _

theorem loadLinesT_out (s : Server) (m : Bytes) (n : Int) (b : Bool) (lines : List Bytes) (kv : KV) (k l : Nat) :
    (loadLinesT E s m n b lines kv k l).2 = loadLines E s m n b lines kv k l := by
  induction lines generalizing kv k l with
  | nil => rfl
  | cons line lines ih =>
    unfold loadLinesT loadLines
    generalize splitN2 line 58 = parts
    rcases parts with _ | ⟨u, _ | ⟨p, _ | ⟨x, rest⟩⟩⟩
    · exact ih ..
    · exact ih ..
    · simp only [insertT_out]
      generalize insert E s u p m n b kv = r
      obtain ⟨kv', r⟩ := r
      cases r with
      | panic p => rfl
      | err e => exact ih ..
      | ok u => exact ih ..
    · exact ih ..

end Migp
