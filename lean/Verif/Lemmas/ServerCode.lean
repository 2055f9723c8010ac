import Verif.Lemmas.ServerView
import Verif.Props.ConcInsert
/-!
# The goroutines of the server, one by one
-/
namespace Migp
open Spec HM

theorem SM.bind_pure {α : Type} : ∀ m : SM α, m >>= pure = m
  | .done (.ok _) => rfl
  | .done (.err _) => rfl
  | .done (.panic _) => rfl
  | .alloc b k => congrArg (SM.alloc b) (funext fun a => SM.bind_pure (k a))
  | .grow n k => congrArg (SM.grow n) (funext fun a => funext fun c => SM.bind_pure (k a c))
  | .read a i k => congrArg (SM.read a i) (funext fun y => SM.bind_pure (k y))
  | .write a i y k => congrArg (SM.write a i y) (SM.bind_pure k)
  | .lock k => congrArg SM.lock (SM.bind_pure k)
  | .unlock k => congrArg SM.unlock (SM.bind_pure k)
  | .rlock k => congrArg SM.rlock (SM.bind_pure k)
  | .runlock k => congrArg SM.runlock (SM.bind_pure k)
  | .mapGet id k => congrArg (SM.mapGet id) (funext fun sl => SM.bind_pure (k sl))
  | .mapSet id sl k => congrArg (SM.mapSet id sl) (SM.bind_pure k)

/-- The calls that append. -/
def appendsOf (ops : List KVOp) : List (KVOp × Bytes) := ops.map fun op => (op, [])

theorem appendsOf_append (a b : List KVOp) : appendsOf (a ++ b) = appendsOf a ++ appendsOf b := List.map_append

theorem appendsOf_fst (a : List KVOp) : (appendsOf a).map Prod.fst = a := by
  unfold appendsOf; rw [List.map_map]; exact (List.map_congr_left fun _ _ => rfl).trans (List.map_id a)

/-- The goroutine has since made these calls and is not in a call. -/
structure After (v : View) (tr : List (KVOp × Bytes)) (v' : View) : Prop where
  free : v'.mode = .free
  trace : v'.trace = v.trace ++ tr
  grows : Grows v.mem v'.mem

theorem After.refl {v : View} (h : v.mode = .free) : After v [] v := ⟨h, (List.append_nil _).symm, Grows.refl _⟩

theorem After.trans {v v' v'' : View} {a b : List (KVOp × Bytes)} (x : After v a v') (y : After v' b v'') :
    After v (a ++ b) v'' := ⟨y.free, by rw [y.trace, x.trace, List.append_assoc], x.grows.trans y.grows⟩

theorem After.nil_trans {v v' v'' : View} {b : List (KVOp × Bytes)} (x : After v [] v') (y : After v' b v'') :
    After v b v'' := x.trans y

/-- What holds of calls holds of the first of them. -/
def PrefixClosed (J : List (KVOp × Bytes) → Prop) : Prop := ∀ a b, J (a ++ b) → J a

theorem PrefixClosed.pre {J : List (KVOp × Bytes) → Prop} (hJ : PrefixClosed J) {a x y : List (KVOp × Bytes)} (h : x <+: y)
    (hj : J (a ++ y)) : J (a ++ x) := by
  obtain ⟨z, rfl⟩ := h
  rw [← List.append_assoc] at hj
  exact hJ _ _ hj

section
variable {J : List (KVOp × Bytes) → Prop} (hJ : PrefixClosed J)

/-- Code of the library in a goroutine that is not in a call of the store. -/
theorem SSafe.lib {β γ δ : Type} {R : Memory → γ → δ → Prop} {m : HM γ} {r : Res δ} {v : View} {f : γ → SM β}
    {P : View → Res β → Prop} (s : Sim v.mem R v.mem m r) (free : v.mode = .free)
    (ok : ∀ v' a b, r = .ok b → After v [] v' → R v'.mem a b → SSafe J (f a) v' P)
    (err : ∀ v' e, r = .err e → After v [] v' → P v' (.err e))
    (panic : ∀ v' p, r = .panic p → After v [] v' → P v' (.panic p)) :
    SSafe J (SM.lift m >>= f) v P := by
  refine SSafe.bind (SSafe.lift s ?_ ?_)
  · intro a x h h'; rw [h] at h'; cases h'
  · rintro v' x hm ht ⟨hk, ha⟩
    have af : After v [] v' := ⟨hm.trans free, by rw [ht, List.append_nil], hk.grows⟩
    cases x <;> cases r <;> first | exact ha.elim | skip
    · exact ok v' _ _ rfl af ha
    · cases ha; exact err v' _ rfl af
    · cases ha; exact panic v' _ rfl af

variable (E : Ext) (s : Server)

theorem insertVariants_res (u m : Bytes) (hex : GoString) (vs : List Bytes) (kv kv' : KV) :
    (insertVariants E s u m hex vs kv).2 = (insertVariants E s u m hex vs kv').2 := by
  induction vs generalizing kv kv' with
  | nil => rfl
  | cons x vs ih =>
    unfold insertVariants
    cases s.encryptBucketEntry E u x MetadataSimilarPassword m with
    | ok c => exact ih _ _
    | err e => rfl
    | panic p => rfl

include hJ in
theorem insertVariantsS_safe {username metadata : Slice} {u m : Bytes} (hex : GoString) :
    ∀ (variants : List Slice) (vs : List Bytes) (v : View), v.mode = .free → Shows v.mem username u → Shows v.mem metadata m →
      List.Forall₂ (Shows v.mem) variants vs → J (v.trace ++ appendsOf (variantCalls E s u m hex vs).1) →
      SSafe J (insertVariantsS E s username metadata hex variants) v fun v' r =>
        After v (appendsOf (variantCalls E s u m hex vs).1) v' ∧ r = (insertVariants E s u m hex vs newKVStore).2
  | [], _, v, hf, hu, hm, .nil, hj => ⟨After.refl hf, rfl⟩
  | x :: xs, _, v, hf, hu, hm, .cons (b := y) (l₂ := ys) hx hxs, hj => by
    unfold insertVariantsS
    unfold variantCalls insertVariants
    unfold variantCalls at hj
    refine SSafe.lib (encryptBucketEntry_sim E s MetadataSimilarPassword hu hx hm) hf ?_ ?_ ?_
    · intro v1 sl c hc af hsl
      rw [hc] at hj ⊢
      dsimp only at hj ⊢
      refine SSafe.append af.free hsl.shows ?_ fun v2 h2 t2 g2 => ?_
      · rw [af.trace, List.append_nil]
        refine hJ _ (appendsOf (variantCalls E s u m hex ys).1) ?_
        rw [List.append_assoc]; exact hj
      · have af2 : After v [(.append hex c, [])] v2 := af.nil_trans ⟨h2, t2, g2⟩
        have g := af2.grows
        refine SSafe.post ?_ (insertVariantsS_safe hex xs ys v2 h2 (hu.grow g) (hm.grow g) (hxs.imp fun _ _ h => h.grow g) ?_)
        · rintro v3 r ⟨a3, rfl⟩
          exact ⟨af2.trans a3, insertVariants_res ..⟩
        · rw [af2.trace, List.append_assoc]; exact hj
    · intro v1 e he af
      rw [he]
      exact ⟨af, rfl⟩
    · intro v1 p he af
      rw [he]
      exact ⟨af, rfl⟩

include hJ in
theorem insertUsernameS_safe {username metadata : Slice} {u m : Bytes} (hex : GoString) (w : Bool) (v : View)
    (hf : v.mode = .free) (hu : Shows v.mem username u) (hm : Shows v.mem metadata m)
    (hj : J (v.trace ++ appendsOf (usernameCalls E s u m hex w))) :
    SSafe J (insertUsernameS E s username metadata hex w) v fun v' r =>
      After v (appendsOf (usernameCalls E s u m hex w)) v' ∧ r = (insertUsername E s u m hex w newKVStore).2 := by
  unfold insertUsernameS
  unfold usernameCalls at hj ⊢
  unfold insertUsername
  cases w with
  | false => exact ⟨After.refl hf, rfl⟩
  | true =>
    rw [if_pos rfl] at hj ⊢
    rw [if_pos rfl, if_pos rfl]
    have hnil : Shows v.mem Slice.nil [] := ⟨le_refl _, rfl, fun i hi => absurd hi (Nat.not_lt_zero _)⟩
    refine SSafe.lib (encryptBucketEntry_sim E s MetadataBreachedUsername hu hnil hm) hf ?_ ?_ ?_
    · intro v1 sl c hc af hsl
      rw [hc] at hj ⊢
      dsimp only at hj ⊢
      have : SSafe J (kvAppendS hex sl >>= pure) v1 fun v' r =>
          After v (appendsOf [KVOp.append hex c]) v' ∧ r = Res.ok () := by
        refine SSafe.append af.free hsl.shows ?_ fun v2 h2 t2 g2 => ⟨af.nil_trans ⟨h2, t2, g2⟩, rfl⟩
        rw [af.trace, List.append_nil]; exact hj
      rw [SM.bind_pure] at this
      exact this
    · intro v1 e he af
      rw [he]
      exact ⟨af, rfl⟩
    · intro v1 p he af
      rw [he]
      exact ⟨af, rfl⟩
theorem insertUsername_res (u m : Bytes) (hex : GoString) (w : Bool) (kv kv' : KV) :
    (insertUsername E s u m hex w kv).2 = (insertUsername E s u m hex w kv').2 := by
  unfold insertUsername
  cases w with
  | false => rfl
  | true =>
    rw [if_pos rfl, if_pos rfl]
    cases s.encryptBucketEntry E u [] MetadataBreachedUsername m <;> rfl

/-- What `insert` returns, without the store. -/
def insertRes (r : Record) : Res Unit := do
  let id ← s.bucketID E r.username
  let _ ← s.encryptBucketEntry E r.username r.password MetadataBreachedPassword r.metadata
  let vs ← Mutator.mutate Mutator.dasRules r.password r.numVariants
  (insertVariants E s r.username r.metadata (BucketIDToHex id) vs newKVStore).2
  (insertUsername E s r.username r.metadata (BucketIDToHex id) r.withUsername newKVStore).2

theorem insertRecord_res (r : Record) (kv : KV) : (insertRecord E s r kv).2 = insertRes E s r := by
  unfold insertRecord insert insertRes
  generalize Mutator.mutate Mutator.dasRules r.password r.numVariants = mu
  cases s.bucketID E r.username with
  | err e => rfl
  | panic p => rfl
  | ok id =>
    dsimp only
    show _ = Res.bind (s.encryptBucketEntry E r.username r.password MetadataBreachedPassword r.metadata) _
    cases s.encryptBucketEntry E r.username r.password MetadataBreachedPassword r.metadata with
    | err e => rfl
    | panic p => rfl
    | ok c =>
      dsimp only
      cases mu with
      | err e => rfl
      | panic p => rfl
      | ok vs =>
        dsimp only
        have hr := insertVariants_res E s r.username r.metadata (BucketIDToHex id) vs (kv.append (BucketIDToHex id) c)
          newKVStore
        show _ = Res.bind (insertVariants E s r.username r.metadata (BucketIDToHex id) vs newKVStore).2 _
        rw [← hr]
        generalize insertVariants E s r.username r.metadata (BucketIDToHex id) vs (kv.append (BucketIDToHex id) c) = out
        obtain ⟨kv', res⟩ := out
        cases res with
        | ok u => exact insertUsername_res ..
        | err e => rfl
        | panic p => rfl

include hJ in
theorem insertS_safe {x : RecordH} {y : Record} (v : View) (hf : v.mode = .free) (hs : RecordShows v.mem x y)
    (hj : J (v.trace ++ appendsOf (insertCalls E s y))) :
    SSafe J (insertS E s x) v fun v' r => After v (appendsOf (insertCalls E s y)) v' ∧ r = insertRes E s y := by
  unfold insertS
  unfold insertCalls at hj ⊢
  unfold insertRes
  rw [hs.numVariants, hs.withUsername]
  generalize Mutator.dasRules = rules at hj ⊢
  have hmut := fun (M : Memory) (h : Shows M x.password y.password) => Mutator.mutate_sim h rules y.numVariants
  generalize Mutator.mutateH rules x.password y.numVariants = muH at hmut ⊢
  generalize Mutator.mutate rules y.password y.numVariants = mu at hj hmut ⊢
  refine SSafe.lib (bucketID_sim E s.bucketHasher s.bucketIDBitSize hs.username) hf ?_ ?_ ?_
  · rintro v1 id _ hid a1 rfl
    have hid : s.bucketID E y.username = .ok _ := hid
    rw [hid] at hj ⊢
    dsimp only at hj ⊢
    show SSafe J _ _ fun v' r => _ ∧ r = Res.bind (s.encryptBucketEntry E _ _ _ _) _
    refine SSafe.lib (encryptBucketEntry_sim E s MetadataBreachedPassword (hs.username.grow a1.grows)
      (hs.password.grow a1.grows) (hs.metadata.grow a1.grows)) a1.free ?_ ?_ ?_
    · intro v2 sl c hc a2 hsl
      rw [hc] at hj ⊢
      dsimp only at hj ⊢
      have a2 := a1.nil_trans a2
      refine SSafe.append a2.free hsl.shows ?_ fun v3 h3 t3 g3 => ?_
      · rw [a2.trace, List.append_nil]
        exact hJ.pre ⟨appendsOf _, rfl⟩ hj
      · have a3 : After v [(.append (BucketIDToHex id) c, [])] v3 := a2.nil_trans ⟨h3, t3, g3⟩
        show SSafe J _ _ fun v' r => _ ∧ r = Res.bind mu _
        refine SSafe.lib (hmut _ (hs.password.grow a3.grows)) h3 ?_ ?_ ?_
        · intro v4 sls vs hvs a4 hsls
          subst hvs
          dsimp only at hj ⊢
          have a4 := a3.trans a4
          rw [List.append_nil] at a4
          have hcalls := Props.variantCalls_run (E := E) (s := s) y.username y.metadata (BucketIDToHex id) vs newKVStore
          show SSafe J _ _ fun v' r => _ ∧ r = Res.bind (insertVariants E s y.username y.metadata (BucketIDToHex id) vs newKVStore).2 _
          refine SSafe.bind (SSafe.post ?_ (insertVariantsS_safe hJ E s (BucketIDToHex id) sls vs v4 a4.free
            (hs.username.grow a4.grows) (hs.metadata.grow a4.grows) (hsls.1.imp fun _ _ n => n.shows) ?_))
          · rintro v5 r ⟨a5, rfl⟩
            have a5 := a4.trans a5
            cases hres : (insertVariants E s y.username y.metadata (BucketIDToHex id) vs newKVStore).2 with
            | ok u =>
              rw [if_pos (hcalls.2.mp hres)] at hj ⊢
              refine SSafe.post ?_ (insertUsernameS_safe hJ E s (BucketIDToHex id) y.withUsername v5 a5.free
                (hs.username.grow a5.grows) (hs.metadata.grow a5.grows) ?_)
              · rintro v6 r ⟨a6, rfl⟩
                refine ⟨?_, rfl⟩
                have := a5.trans a6
                rw [List.append_assoc, ← appendsOf_append] at this
                exact this
              · rw [a5.trace, List.append_assoc, List.append_assoc, ← appendsOf_append]
                exact hj
            | err e =>
              rw [if_neg (by intro hh; rw [hcalls.2.mpr hh] at hres; cases hres), List.append_nil]
              exact ⟨a5, rfl⟩
            | panic p =>
              rw [if_neg (by intro hh; rw [hcalls.2.mpr hh] at hres; cases hres), List.append_nil]
              exact ⟨a5, rfl⟩
          · rw [a4.trace, List.append_assoc]
            refine hJ.pre ?_ hj
            refine List.cons_prefix_cons.mpr ⟨rfl, ?_⟩
            show appendsOf _ <+: appendsOf (_ ++ _)
            rw [appendsOf_append]
            exact List.prefix_append _ _
        · intro v4 e he a4
          subst he
          have a4 := a3.trans a4
          exact ⟨a4, rfl⟩
        · intro v4 e he a4
          subst he
          have a4 := a3.trans a4
          exact ⟨a4, rfl⟩
    · intro v2 e he a2
      rw [he]
      exact ⟨a1.nil_trans a2, rfl⟩
    · intro v2 e he a2
      rw [he]
      exact ⟨a1.nil_trans a2, rfl⟩
  · intro v1 e he a1
    have he : s.bucketID E y.username = .err e := he
    rw [he]
    exact ⟨a1, rfl⟩
  · intro v1 e he a1
    have he : s.bucketID E y.username = .panic e := he
    rw [he]
    exact ⟨a1, rfl⟩

theorem _root_.Migp.Spec.RecordShows.grow {M M' : Memory} {x : RecordH} {y : Record} (h : RecordShows M x y) (g : Grows M M') :
    RecordShows M' x y :=
  ⟨h.username.grow g, h.password.grow g, h.metadata.grow g, h.numVariants, h.withUsername⟩

include hJ in
theorem loadS_safe : ∀ (xs : List RecordH) (ys : List Record) (n m : Nat) (v : View), v.mode = .free →
    List.Forall₂ (RecordShows v.mem) xs ys → J (v.trace ++ appendsOf (loadCalls E s ys)) →
    SSafe J (loadS E s xs n m) v fun v' r =>
      After v (appendsOf (loadCalls E s ys)) v' ∧ r = loadOutcome E s ys n m
  | [], _, n, m, v, hf, .nil, hj => ⟨After.refl hf, rfl⟩
  | x :: xs, _, n, m, v, hf, .cons (b := y) (l₂ := ys) hx hxs, hj => by
    unfold loadS
    unfold loadCalls loadOutcome
    unfold loadCalls at hj
    rw [insertRecord_res] at hj ⊢
    rw [appendsOf_append] at hj ⊢
    refine SSafe.bind (SSafe.attempt (SSafe.post ?_ (insertS_safe hJ E s v hf hx (by
      rw [← List.append_assoc] at hj; exact hJ _ _ hj))))
    rintro v1 r ⟨a1, rfl⟩
    cases hr : insertRes E s y with
    | ok u =>
      rw [hr] at hj
      refine SSafe.post ?_ (loadS_safe xs ys (n + 1) m v1 a1.free (hxs.imp fun _ _ h => h.grow a1.grows) ?_)
      · rintro v2 r ⟨a2, rfl⟩
        exact ⟨a1.trans a2, rfl⟩
      · rw [a1.trace, List.append_assoc]; exact hj
    | err e =>
      rw [hr] at hj
      refine SSafe.post ?_ (loadS_safe xs ys n (m + 1) v1 a1.free (hxs.imp fun _ _ h => h.grow a1.grows) ?_)
      · rintro v2 r ⟨a2, rfl⟩
        exact ⟨a1.trans a2, rfl⟩
      · rw [a1.trace, List.append_assoc]; exact hj
    | panic p =>
      refine ⟨?_, rfl⟩
      show After v (_ ++ []) v1
      rw [List.append_nil]; exact a1

theorem load_sim {M : Memory} {sl : Slice} {b : Bytes} (h : Shows M sl b) :
    Sim M (fun _ x y => x = y) M (HM.load sl) (.ok b) := by
  have hp : ∀ (arr n i : Nat), HM.readFrom arr i n >>= pure = HM.readFrom arr i n := by
    intro arr n
    induction n with
    | zero => intro i; rfl
    | succ n ih =>
      intro i
      refine congrArg (HM.read arr i) (funext fun y => ?_)
      have h2 : ∀ (m : HM Bytes) (g : Bytes → Bytes), (m >>= fun bs => pure (g bs)) >>= pure = m >>= fun bs => pure (g bs) := by
        intro m g
        induction m with
        | done r => cases r <;> rfl
        | alloc b k ih => exact congrArg (HM.alloc b) (funext fun a => ih a)
        | read a i k ih => exact congrArg (HM.read a i) (funext fun a => ih a)
        | write a i v k ih => exact congrArg (HM.write a i v) ih
      exact h2 _ _
  have := Sim.load (M0 := M) (f := fun x => (pure x : HM Bytes)) (r := .ok b) (R' := fun _ x y => x = y) h
    (Sim.pure (Kept.refl M) rfl)
  have e : HM.load sl >>= (fun x => (pure x : HM Bytes)) = HM.load sl := hp _ _ _
  rw [e] at this
  exact this

theorem _root_.Migp.Spec.ResponseShows.grow {M M' : Memory} {x : ServerResponseH} {y : ServerResponse}
    (h : ResponseShows M x y) (g : Grows M M') : ResponseShows M' x y :=
  ⟨h.version, h.evaluatedElement.grow g, h.bucketContents.grow g⟩

/-- What a goroutine that answers a request may have done by the end. -/
def RepliedWith (request : ClientRequest) (v : View) (v' : View) (r : Res Bytes) : Prop :=
  (∃ b, After v [(.get request.bucketID, b)] v' ∧ r = replyOf s (fun _ => .ok b) request) ∨
    (After v [] v' ∧ ∀ kv, r = replyOf s kv request)

theorem replyS_safe {x : ClientRequestH} {y : ClientRequest} (v : View) (hf : v.mode = .free) (hs : RequestShows v.mem x y)
    (hj : ∀ b, J (v.trace ++ [(.get y.bucketID, b)])) :
    SSafe J (replyS s x) v (RepliedWith s y v) := by
  unfold replyS handleRequestS
  by_cases hv : UInt16.ofNat x.version.toNat ≠ s.version
  · rw [if_pos hv]
    refine Or.inr ⟨After.refl hf, fun kv => ?_⟩
    unfold replyOf Server.handleRequest
    rw [← hs.version, if_pos hv]
    rfl
  · rw [if_neg hv]
    have hrep : ∀ kv, replyOf s kv y = (s.suite.evaluate s.privateKey y.blindElement OprfInfo >>= fun evaluated =>
        (match hexDecode y.bucketID with
        | none => .err .bucketIDHex
        | some _ => kv y.bucketID >>= fun b => .ok { version := y.version, evaluatedElement := evaluated, bucketContents := b }) >>=
        ServerResponse.marshalBinary) := by
      intro kv
      unfold replyOf Server.handleRequest
      rw [← hs.version, if_neg hv]
      cases s.suite.evaluate s.privateKey y.blindElement OprfInfo <;> rfl
    rw [SM.bind_assoc]
    refine SSafe.lib (load_sim hs.blindElement) hf ?_ (fun _ _ h => by cases h) (fun _ _ h => by cases h)
    rintro v1 _ b hb a1 rfl
    cases hb
    rw [SM.bind_assoc]
    cases hev : s.suite.evaluate s.privateKey y.blindElement OprfInfo with
    | err e => exact Or.inr ⟨a1, fun kv => by rw [hrep, hev]; rfl⟩
    | panic p => exact Or.inr ⟨a1, fun kv => by rw [hrep, hev]; rfl⟩
    | ok ev =>
      rw [hev] at hrep
      show SSafe J ((SM.lift (HM.new ev) >>= _) >>= _) _ _
      rw [SM.bind_assoc]
      refine SSafe.lib (Sim.new_ret (Kept.refl v1.mem)) a1.free ?_ (fun _ _ h => by cases h) (fun _ _ h => by cases h)
      intro v2 sl b hb a2 hsl
      cases hb
      have a2 := a1.nil_trans a2
      rw [hs.bucketID]
      cases hx : hexDecode y.bucketID with
      | none =>
        rw [hx] at hrep
        exact Or.inr ⟨a2, fun kv => by rw [hrep]; rfl⟩
      | some d =>
        rw [hx] at hrep
        dsimp only at hrep ⊢
        rw [SM.bind_assoc]
        refine SSafe.get a2.free fun v3 bsl b h3 t3 g3 hb3 => ?_
        have a3 : After v [(.get y.bucketID, b)] v3 := a2.nil_trans ⟨h3, t3, g3⟩
        refine ⟨by rw [a3.trace]; exact hj b, ?_⟩
        have hrs : ResponseShows v3.mem { version := x.version, evaluatedElement := sl, bucketContents := bsl }
            { version := y.version, evaluatedElement := ev, bucketContents := b } :=
          ⟨hs.version, hsl.shows.grow g3, hb3⟩
        have hrb : replyOf s (fun _ => .ok b) y = ServerResponse.marshalBinary
            { version := y.version, evaluatedElement := ev, bucketContents := b } := hrep _
        show SSafe J (SM.lift (ServerResponseH.marshalBinaryH _) >>= _) v3 _
        refine SSafe.lib (marshalBinary_sim hrs) h3 ?_ ?_ ?_
        · intro v4 body bytes hbytes a4 hbody
          have a4 := a3.trans a4
          rw [← SM.bind_pure (SM.lift (HM.load body))]
          refine SSafe.lib (load_sim hbody.shows) a4.free ?_ (fun _ _ h => by cases h) (fun _ _ h => by cases h)
          rintro v5 _ b5 hb5 a5 rfl
          cases hb5
          exact Or.inl ⟨b, a4.trans a5, by rw [hrb, hbytes]⟩
        · intro v4 e he a4
          exact Or.inl ⟨b, a3.trans a4, by rw [hrb, he]⟩
        · intro v4 e he a4
          exact Or.inl ⟨b, a3.trans a4, by rw [hrb, he]⟩

/-- A result that may be a response in memory stands for this one. -/
def ResponseRes (M : Memory) : Res ServerResponseH → Res ServerResponse → Prop
  | .ok x, .ok y => ResponseShows M x y
  | .err e, .err e' => e = e'
  | .panic p, .panic p' => p = p'
  | _, _ => False

/-- What `HandleRequest` may have done by the end. -/
def HandledWith (request : ClientRequest) (v : View) (v' : View) (r : Res ServerResponseH) : Prop :=
  (∃ b, After v [(.get request.bucketID, b)] v' ∧ ResponseRes v'.mem r (s.handleRequest request fun _ => .ok b)) ∨
    (After v [] v' ∧ (∀ x, r ≠ .ok x) ∧ ∀ kv, ResponseRes v'.mem r (s.handleRequest request kv))

theorem handleRequestS_safe {x : ClientRequestH} {y : ClientRequest} (v : View) (hf : v.mode = .free)
    (hs : RequestShows v.mem x y) (hj : ∀ b, J (v.trace ++ [(.get y.bucketID, b)])) :
    SSafe J (handleRequestS s x) v (HandledWith s y v) := by
  unfold handleRequestS
  by_cases hv : UInt16.ofNat x.version.toNat ≠ s.version
  · rw [if_pos hv]
    refine Or.inr ⟨After.refl hf, (fun x hx => nomatch hx), fun kv => ?_⟩
    unfold Server.handleRequest
    rw [← hs.version, if_pos hv]
    rfl
  · rw [if_neg hv]
    have hrep : ∀ kv, s.handleRequest y kv = (s.suite.evaluate s.privateKey y.blindElement OprfInfo >>= fun evaluated =>
        (match hexDecode y.bucketID with
        | none => .err .bucketIDHex
        | some _ => kv y.bucketID >>= fun b => .ok { version := y.version, evaluatedElement := evaluated, bucketContents := b })) := by
      intro kv
      unfold Server.handleRequest
      rw [← hs.version, if_neg hv]
      cases s.suite.evaluate s.privateKey y.blindElement OprfInfo <;> rfl
    refine SSafe.lib (load_sim hs.blindElement) hf ?_ (fun _ _ h => by cases h) (fun _ _ h => by cases h)
    rintro v1 _ b hb a1 rfl
    cases hb
    cases hev : s.suite.evaluate s.privateKey y.blindElement OprfInfo with
    | err e => exact Or.inr ⟨a1, (fun x hx => nomatch hx), fun kv => by rw [hrep, hev]; rfl⟩
    | panic p => exact Or.inr ⟨a1, (fun x hx => nomatch hx), fun kv => by rw [hrep, hev]; rfl⟩
    | ok ev =>
      rw [hev] at hrep
      show SSafe J (SM.lift (HM.new ev) >>= _) _ _
      refine SSafe.lib (Sim.new_ret (Kept.refl v1.mem)) a1.free ?_ (fun _ _ h => by cases h) (fun _ _ h => by cases h)
      intro v2 sl b hb a2 hsl
      cases hb
      have a2 := a1.nil_trans a2
      rw [hs.bucketID]
      cases hx : hexDecode y.bucketID with
      | none =>
        rw [hx] at hrep
        exact Or.inr ⟨a2, (fun x hx => nomatch hx), fun kv => by rw [hrep]; rfl⟩
      | some d =>
        rw [hx] at hrep
        dsimp only at hrep ⊢
        refine SSafe.get a2.free fun v3 bsl b h3 t3 g3 hb3 => ?_
        have a3 : After v [(.get y.bucketID, b)] v3 := a2.nil_trans ⟨h3, t3, g3⟩
        refine ⟨by rw [a3.trace]; exact hj b, Or.inl ⟨b, a3, ?_⟩⟩
        rw [hrep]
        exact ⟨hs.version, hsl.shows.grow g3, hb3⟩

/-- What a goroutine that handles `/evaluate` may have done by the end. -/
def EvaluatedWith (stale : Nat → Nat → UInt8) (body : Option Bytes) (v : View) (v' : View) (r : Res Http.Writer) : Prop :=
  (∃ id b, After v [(.get id, b)] v' ∧ ∀ kv : KV, kv.store id = b → r = handleEvaluate s kv stale body) ∨
  (After v [] v' ∧ ∀ kv, r = handleEvaluate s kv stale body)

theorem handleRequest_get (request : ClientRequest) (kv : KV) :
    s.handleRequest request kv.get = s.handleRequest request fun _ => .ok (kv.store request.bucketID) := rfl

theorem handleEvaluateS_safe (stale : Nat → Nat → UInt8) (body : Option Bytes) (v : View) (hf : v.mode = .free)
    (hj : ∀ text, body = some text →
      ∀ b, J (v.trace ++ [(.get (ClientRequest.unmarshalJSON stale text ClientRequest.zero).1.bucketID, b)])) :
    SSafe J (handleEvaluateS s stale body) v (EvaluatedWith s stale body v) := by
  cases body with
  | none => exact Or.inr ⟨After.refl hf, fun kv => rfl⟩
  | some text =>
    unfold handleEvaluateS
    refine SSafe.lib (Sim.new_ret (Kept.refl v.mem)) hf ?_ (fun _ _ h => by cases h) (fun _ _ h => by cases h)
    intro v1 sl b hb a1 hsl
    cases hb
    refine SSafe.lib (load_sim hsl.shows) a1.free ?_ (fun _ _ h => by cases h) (fun _ _ h => by cases h)
    rintro v2 _ b hb a2 rfl
    cases hb
    have a2 := a1.nil_trans a2
    have hj := hj text rfl
    have hev : ∀ kv, handleEvaluate s kv stale (some text) =
      (let request := ClientRequest.unmarshalJSON stale text ClientRequest.zero
      let w := if request.2 then Http.Writer.new.error (Http.statusText 400) 400 else Http.Writer.new
      match s.handleRequest request.1 (fun _ => .ok (kv.store request.1.bucketID)) with
      | .panic p => .panic p
      | .err _ => .ok (w.error (Http.statusText 500) 500)
      | .ok migpResponse =>
        let w := w.setContentType (ascii "application/octet-stream")
        match migpResponse.marshalBinary with
        | .panic p => .panic p
        | .err _ => .ok ((w.error (Http.statusText 500) 500).write [])
        | .ok respBody => .ok (w.write respBody)) := fun kv => rfl
    unfold EvaluatedWith
    simp only [hev]
    clear hev
    generalize ClientRequest.unmarshalJSON stale text ClientRequest.zero = request at hj ⊢
    obtain ⟨req, bad⟩ := request
    dsimp only at hj ⊢
    generalize (if bad = true then Http.Writer.new.error (Http.statusText 400) 400 else Http.Writer.new) = w
    refine SSafe.lib (Sim.new_ret (Kept.refl v2.mem)) a2.free ?_ (fun _ _ h => by cases h) (fun _ _ h => by cases h)
    intro v3 el b hb a3 hel
    cases hb
    have a3 := a2.nil_trans a3
    refine SSafe.bind (SSafe.attempt (SSafe.post ?_ (handleRequestS_safe s v3 (y := req) a3.free
      ⟨rfl, rfl, hel.shows⟩ (fun b => by rw [a3.trace, List.append_nil]; exact hj b))))
    rintro v4 r (⟨b, a4, hr⟩ | ⟨a4, hq, hr⟩)
    · have a4 := a3.nil_trans a4
      cases r with
      | err e =>
        cases hh : s.handleRequest req fun _ => .ok b with
        | ok y => rw [hh] at hr; exact hr.elim
        | panic y => rw [hh] at hr; exact hr.elim
        | err e' => exact Or.inl ⟨_, b, a4, fun kv hk => by rw [hk, hh]⟩
      | panic p =>
        cases hh : s.handleRequest req fun _ => .ok b with
        | ok y => rw [hh] at hr; exact hr.elim
        | err y => rw [hh] at hr; exact hr.elim
        | panic p' => rw [hh] at hr; cases hr; exact Or.inl ⟨_, b, a4, fun kv hk => by rw [hk, hh]⟩
      | ok x =>
        cases hh : s.handleRequest req fun _ => .ok b with
        | err y => rw [hh] at hr; exact hr.elim
        | panic y => rw [hh] at hr; exact hr.elim
        | ok y =>
          rw [hh] at hr
          have hr : ResponseShows v4.mem x y := hr
          show SSafe J (SM.attempt (SM.lift x.marshalBinaryH) >>= _) v4 _
          refine SSafe.bind (SSafe.attempt ?_)
          rw [← SM.bind_pure (SM.lift x.marshalBinaryH)]
          refine SSafe.lib (marshalBinary_sim hr) a4.free ?_ ?_ ?_
          · intro v5 rb bytes hbytes a5 hrb
            have a5 := a4.trans a5
            show SSafe J (SM.lift (HM.load rb) >>= _) v5 _
            refine SSafe.lib (load_sim hrb.shows) a5.free ?_ (fun _ _ h => by cases h) (fun _ _ h => by cases h)
            rintro v6 _ b6 hb6 a6 rfl
            cases hb6
            exact Or.inl ⟨_, b, a5.trans a6, fun kv hk => by rw [hk, hh]; dsimp only; rw [hbytes]⟩
          · intro v5 e he a5
            exact Or.inl ⟨_, b, a4.trans a5, fun kv hk => by rw [hk, hh]; dsimp only; rw [he]⟩
          · intro v5 p he a5
            exact Or.inl ⟨_, b, a4.trans a5, fun kv hk => by rw [hk, hh]; dsimp only; rw [he]⟩
    · have a4 := a3.nil_trans a4
      cases r with
      | ok x => exact absurd rfl (hq x)
      | err e =>
        refine Or.inr ⟨a4, fun kv => ?_⟩
        have := hr fun _ => .ok (kv.store req.bucketID)
        cases hh : s.handleRequest req fun _ => .ok (kv.store req.bucketID) with
        | ok y => rw [hh] at this; exact this.elim
        | panic y => rw [hh] at this; exact this.elim
        | err e' => rfl
      | panic p =>
        refine Or.inr ⟨a4, fun kv => ?_⟩
        have := hr fun _ => .ok (kv.store req.bucketID)
        cases hh : s.handleRequest req fun _ => .ok (kv.store req.bucketID) with
        | ok y => rw [hh] at this; exact this.elim
        | err y => rw [hh] at this; exact this.elim
        | panic e' => rw [hh] at this; cases this; rfl

end

/-- What holds of the calls of a goroutine at any time. -/
def JobV.Sofar (E : Ext) (s : Server) (j : JobV) (tr : List (KVOp × Bytes)) : Prop := tr.map Prod.fst <+: j.calls E s

/-- The code of a goroutine is safe, from the beginning. -/
theorem job_safe (E : Ext) (s : Server) {M : Memory} {x : JobH} {y : JobV} (h : JobShows M x y) :
    SSafe (JobV.Sofar E s y) (x.code E s) ⟨.free, [], M, fun _ => none⟩ fun v r =>
      v.mode = .free ∧ y.Ends E s v.trace r := by
  have hm : (⟨.free, [], M, fun _ => none⟩ : View).mem = M := rfl
  have hJ : PrefixClosed (JobV.Sofar E s y) := by
    intro a b hab
    unfold JobV.Sofar at *
    rw [List.map_append] at hab
    exact (List.prefix_append _ _).trans hab
  cases h with
  | load rs rs' hrs =>
    refine SSafe.bind (SSafe.post ?_ (loadS_safe hJ E s rs rs' 0 0 _ rfl hrs ?_))
    · rintro v r ⟨af, rfl⟩
      have ht := af.trace
      rw [List.nil_append] at ht
      have hend : v.trace.map Prod.fst = loadCalls E s rs' := by rw [ht, appendsOf_fst]
      cases hr : loadOutcome E s rs' 0 0 with
      | ok n => exact ⟨af.free, hend, by rw [hr]; rfl⟩
      | err e => exact ⟨af.free, hend, by rw [hr]; rfl⟩
      | panic p => exact ⟨af.free, hend, by rw [hr]; rfl⟩
    · show (([] ++ appendsOf _ : List _).map Prod.fst) <+: _
      rw [List.nil_append, appendsOf_fst]
      exact List.prefix_rfl
  | reply x y hxy =>
    refine SSafe.bind (SSafe.post ?_ (replyS_safe s _ rfl hxy ?_))
    · rintro v r (⟨b, af, rfl⟩ | ⟨af, hr⟩)
      · have ht := af.trace
        rw [List.nil_append] at ht
        cases hr : replyOf s (fun _ => .ok b) y with
        | ok n => exact ⟨af.free, Or.inl ⟨b, ht, by rw [hr]; rfl⟩⟩
        | err e => exact ⟨af.free, Or.inl ⟨b, ht, by rw [hr]; rfl⟩⟩
        | panic p => exact ⟨af.free, Or.inl ⟨b, ht, by rw [hr]; rfl⟩⟩
      · have ht := af.trace
        rw [List.nil_append] at ht
        cases r with
        | ok n => exact ⟨af.free, Or.inr ⟨ht, fun kv => by rw [← hr kv]; rfl⟩⟩
        | err e => exact ⟨af.free, Or.inr ⟨ht, fun kv => by rw [← hr kv]; rfl⟩⟩
        | panic p => exact ⟨af.free, Or.inr ⟨ht, fun kv => by rw [← hr kv]; rfl⟩⟩
    · intro b
      exact List.prefix_rfl
  | serve stale path body =>
    show SSafe _ (serveS s stale path body >>= fun w => pure (JobOut.served w)) _ _
    unfold serveS
    cases hr : route path with
    | index => exact ⟨rfl, Or.inr ⟨rfl, fun kv => by unfold serve; rw [hr]; rfl⟩⟩
    | config => exact ⟨rfl, Or.inr ⟨rfl, fun kv => by unfold serve; rw [hr]; rfl⟩⟩
    | redirect p => exact ⟨rfl, Or.inr ⟨rfl, fun kv => by unfold serve; rw [hr]; rfl⟩⟩
    | evaluate =>
      dsimp only
      rw [SM.bind_assoc]
      have hserve : ∀ kv, serve s kv stale path body = some (handleEvaluate s kv stale body) := fun kv => by
        unfold serve; rw [hr]
      refine SSafe.bind (SSafe.post ?_ (handleEvaluateS_safe s stale body _ rfl ?_))
      · rintro v r (⟨id, b, af, h⟩ | ⟨af, h⟩)
        · have ht := af.trace
          rw [List.nil_append] at ht
          have e : (JobV.serve stale path body).Ends E s v.trace (servedOf (some r)) :=
            Or.inl ⟨_, b, ht, fun kv hk => by rw [hserve, ← h kv hk]⟩
          cases r <;> exact ⟨af.free, e⟩
        · have ht := af.trace
          rw [List.nil_append] at ht
          have e : (JobV.serve stale path body).Ends E s v.trace (servedOf (some r)) :=
            Or.inr ⟨ht, fun kv => by rw [hserve, ← h kv]⟩
          cases r <;> exact ⟨af.free, e⟩
      · rintro text rfl b
        unfold JobV.Sofar JobV.calls
        dsimp only
        rw [hr]
        exact List.prefix_rfl

end Migp
