import Verif.Src.Run

/-!
# Rules for running programs

Lemmas for the simplifier: what an expression or statement does, one construct at a time.
-/

namespace Bips.Src

theorem run_succ (W : World) (L n : Nat) (f : Fn) (args : List Val) :
    run W L (n + 1) f args =
      (exec W L (run W L n) (code f).1 (args ++ pad ((code f).2 - args.length))).bind Flow.result := rfl

section
variable {α β : Type} (f : α → Res β) (g : Env → Res Flow) (a : α) (e : Env) (vs : List Val)

@[src] theorem bind_ok : (Res.ok a).bind f = f a := rfl
@[src] theorem bind_panic : (Res.panic : Res α).bind f = .panic := rfl
@[src] theorem bind_stuck : (Res.stuck : Res α).bind f = .stuck := rfl
@[src] theorem andThen_next : (Flow.next e).andThen g = g e := rfl
@[src] theorem andThen_ret : (Flow.ret vs).andThen g = .ok (.ret vs) := rfl
@[src] theorem andThen_brk : (Flow.brk e).andThen g = .ok (.brk e) := rfl
@[src] theorem again_next : (Flow.next e).again g = g e := rfl
@[src] theorem again_ret : (Flow.ret vs).again g = .ok (.ret vs) := rfl
@[src] theorem again_brk : (Flow.brk e).again g = .ok (.next e) := rfl
@[src] theorem result_ret : (Flow.ret vs).result = .ok vs := rfl
@[src] theorem asBool_bool (b : Bool) : asBool (.bool b) = .ok b := rfl
@[src] theorem asList_list (l : List Val) : asList (.list l) = .ok l := rfl
@[src] theorem items_bytes (b : Bytes) : (Val.bytes b).items = .ok (b.map .u8) := rfl
@[src] theorem items_list (l : List Val) : (Val.list l).items = .ok l := rfl
@[src] theorem setOpt_some (i : Nat) (v : Val) : setOpt e (some i) v = e.set i v := rfl
@[src] theorem setOpt_none (v : Val) : setOpt e none v = e := rfl
@[src] theorem setAll_nil : setAll e [] [] = .ok e := rfl
@[src] theorem setAll_cons (i : Option Nat) (is : List (Option Nat)) (v : Val) :
    setAll e (i :: is) (v :: vs) = setAll (setOpt e i v) is vs := rfl
@[src] theorem isNone_none : (none : Option Err).isNone = true := rfl
@[src] theorem isNone_some (x : Err) : (some x).isNone = false := rfl
@[src] theorem orStuck_some (h : Bytes → Val) (b : Bytes) : orStuck h (some b) = .ok (h b) := rfl
@[src] theorem bytesIn_nil : bytesIn [] = some [] := rfl
@[src] theorem bytesIn_cons (c : UInt8) (l : List Val) : bytesIn (.u8 c :: l) = (bytesIn l).map (c :: ·) := rfl
@[src] theorem strings_map (l : List Bytes) : strings (l.map .str) = some l := by
  induction l with
  | nil => rfl
  | cons s l ih => simp [strings, ih]
@[src] theorem bin_int (op : Op) (a b : Int) : binOp op (.int a) (.int b) = intOp op a b := rfl
@[src] theorem bin_u32 (op : Op) (a b : UInt32) : binOp op (.u32 a) (.u32 b) = u32Op op a b := rfl
@[src] theorem bin_u8 (op : Op) (a b : UInt8) : binOp op (.u8 a) (.u8 b) = u8Op op a b := rfl
@[src] theorem bin_uint (op : Op) (a b : UInt64) : binOp op (.uint a) (.uint b) = u64Op .uint op a b := rfl
@[src] theorem bin_u64 (op : Op) (a b : UInt64) : binOp op (.u64 a) (.u64 b) = u64Op .u64 op a b := rfl
@[src] theorem bin_str (op : Op) (a b : Bytes) : binOp op (.str a) (.str b) = strOp op a b := rfl
@[src] theorem bin_f32 (op : Op) (a b : ℚ) : binOp op (.f32 a) (.f32 b) = f32Op op a b := rfl
@[src] theorem bin_shl (a : UInt8) (k : UInt64) :
    binOp .shl (.u8 a) (.uint k) = .ok (.u8 (if k.toNat < 8 then a <<< UInt8.ofNat k.toNat else 0)) := rfl

end

attribute [src] eval exec code intOp u32Op u8Op u64Op strOp f32Op
  lenSem List.set_cons_succ List.set_cons_zero List.set_nil List.getElem?_cons_zero List.getElem?_cons_succ
  List.length_cons List.length_nil pad List.cons_append List.nil_append List.map_cons List.map_nil
  Bool.false_eq_true Bool.true_eq_false eq_self decide_true decide_false Bool.not_eq_true
  if_true if_false ite_true ite_false Val.toInt? Bool.not_true Bool.not_false Option.map_some

/-! ### Results -/

/-- Results of the shape `(T, error)`. -/
def both {α : Type} (f : α → Val) (r : α × Option Err) : List Val := [f r.1, .err r.2]

/-- Results of a function that may panic. -/
def outcome {α : Type} (f : α → List Val) : Outcome α → Res (List Val)
  | .ok a => .ok (f a)
  | .panic => .panic

/-! ### Conversions and slices -/

theorem conv_u32_int (i : Int) : convTo .u32 i = .u32 (intToUint32 i) := rfl

theorem conv_u8_nat (k : Nat) : convTo .u8 (k : Int) = .u8 (UInt8.ofNat k) := by
  have h : ((k : Int) % 2 ^ 8).toNat = k % 2 ^ 8 := by omega
  simp only [convTo, h]
  congr 1
  apply UInt8.toNat_inj.mp
  simp

theorem conv_u16_nat (k : Nat) : convTo .u16 (k : Int) = .u16 (UInt16.ofNat k) := by
  have h : ((k : Int) % 2 ^ 16).toNat = k % 2 ^ 16 := by omega
  simp only [convTo, h]
  congr 1
  apply UInt16.toNat_inj.mp
  simp

theorem conv_u32_nat (k : Nat) : convTo .u32 (k : Int) = .u32 (UInt32.ofNat k) := by
  have h : ((k : Int) % 2 ^ 32).toNat = k % 2 ^ 32 := by omega
  simp only [convTo, h]
  congr 1
  apply UInt32.toNat_inj.mp
  simp

theorem conv_u64_nat (k : Nat) : convTo .u64 (k : Int) = .u64 (UInt64.ofNat k) := by
  have h : ((k : Int) % 2 ^ 64).toNat = k % 2 ^ 64 := by omega
  simp only [convTo, h]
  congr 1
  apply UInt64.toNat_inj.mp
  simp

theorem conv_uint_nat (k : Nat) : convTo .uint (k : Int) = .uint (UInt64.ofNat k) := by
  have h : ((k : Int) % 2 ^ 64).toNat = k % 2 ^ 64 := by omega
  simp only [convTo, h]
  congr 1
  apply UInt64.toNat_inj.mp
  simp

theorem wrapInt_of {i : Int} (h1 : -2 ^ 63 ≤ i) (h2 : i < 2 ^ 63) : wrapInt i = i := by
  unfold wrapInt
  rw [Int.bmod_eq_of_le_mul_two] <;> omega

theorem sliceFrom_list {l : List Val} {lo : Nat} (h : lo ≤ l.length) : sliceFromSem (.list l) lo = .ok (.list (l.drop lo)) := by
  simp only [sliceFromSem]
  rw [if_neg (by omega)]
  simp

theorem sliceFrom_bytes {b : Bytes} {lo : Nat} (h : lo ≤ b.length) : sliceFromSem (.bytes b) lo = .ok (.bytes (b.drop lo)) := by
  simp only [sliceFromSem]
  rw [if_neg (by omega)]
  simp

theorem slice_bytes {b : Bytes} {lo hi : Nat} (h1 : lo ≤ hi) (h2 : hi ≤ b.length) :
    sliceSem (.bytes b) lo hi = .ok (.bytes (slice b lo hi)) := by
  unfold sliceSem
  simp only
  rw [if_neg (by omega), if_neg (by omega)]
  simp

theorem slice_list {l : List Val} {lo hi : Nat} (h1 : lo ≤ hi) (h2 : hi ≤ l.length) :
    sliceSem (.list l) lo hi = .ok (.list ((l.take hi).drop lo)) := by
  unfold sliceSem
  simp only
  rw [if_neg (by omega), if_neg (by omega)]
  simp

theorem slice_bytes_int {b : Bytes} {lo hi : Int} (h0 : 0 ≤ lo) (h1 : lo ≤ hi) (h2 : hi ≤ b.length) :
    sliceSem (.bytes b) lo hi = .ok (.bytes (slice b lo.toNat hi.toNat)) := by
  simp only [sliceSem]
  rw [if_neg (by omega), if_neg (by omega)]

theorem sliceFrom_bytes_int {b : Bytes} {lo : Int} (h0 : 0 ≤ lo) (h1 : lo ≤ b.length) :
    sliceFromSem (.bytes b) lo = .ok (.bytes (b.drop lo.toNat)) := by
  simp only [sliceFromSem]
  rw [if_neg (by omega)]

theorem index_bytes_int {b : Bytes} {i : Int} (h0 : 0 ≤ i) (h1 : i.toNat < b.length) :
    indexSem (.bytes b) i = .ok (.u8 b[i.toNat]) := by
  simp only [indexSem]
  rw [if_neg (by omega), List.getElem?_eq_getElem h1]

theorem copyInto_bytes_int {b src : Bytes} {lo hi : Int} (h0 : 0 ≤ lo) (h1 : lo ≤ hi) (h2 : hi ≤ b.length) :
    copyIntoSem (.bytes b) lo hi src = .ok (.bytes (copyAt b lo.toNat hi.toNat src)) := by
  simp only [copyIntoSem]
  rw [if_neg (by omega), if_neg (by omega)]

theorem index_bytes {b : Bytes} {i : Nat} (h : i < b.length) : indexSem (.bytes b) i = .ok (.u8 b[i]) := by
  unfold indexSem
  simp [List.getElem?_eq_getElem h]

theorem index_list {l : List Val} {i : Nat} (h : i < l.length) : indexSem (.list l) i = .ok l[i] := by
  unfold indexSem
  simp [List.getElem?_eq_getElem h]

theorem index_map {α : Type} (f : α → Val) (l : List α) (i : Nat) :
    indexSem (.list (l.map f)) i = match l[i]? with
      | some v => .ok (f v)
      | none => .panic := by
  simp only [indexSem]
  rw [if_neg (by omega)]
  simp only [Int.toNat_natCast, List.getElem?_map]
  cases l[i]? <;> rfl

theorem setIndex_map {α : Type} (f : α → Val) (l : List α) (i : Nat) (x : α) :
    setIndexSem (.list (l.map f)) i (f x) = if i < l.length then .ok (.list ((l.set i x).map f)) else .panic := by
  have h : setIndexSem (.list (l.map f)) i (f x) =
      if 0 ≤ (i : Int) ∧ (i : Int) < (l.map f).length then .ok (.list ((l.map f).set (i : Int).toNat (f x))) else .panic := by
    unfold setIndexSem
    split <;> simp_all
  rw [h]
  by_cases hi : i < l.length
  · rw [if_pos hi, if_pos (by simp [hi])]
    simp [List.map_set]
  · rw [if_neg hi, if_neg (by simp [hi])]

/-! ### Loops -/

theorem loop_step {cond : Env → Res Bool} {post body : Env → Res Flow} {fuel : Nat} {e e1 e2 : Env}
    (hc : cond e = .ok true) (hb : body e = .ok (.next e1)) (hp : post e1 = .ok (.next e2)) :
    loop cond post body (fuel + 1) e = loop cond post body fuel e2 := by
  simp only [loop, hc, hb, hp, bind_ok, again_next, andThen_next, if_true]

theorem loop_stop {cond : Env → Res Bool} {post body : Env → Res Flow} {fuel : Nat} {e : Env} (hc : cond e = .ok false) :
    loop cond post body (fuel + 1) e = .ok (.next e) := by
  simp [loop, hc, bind_ok]

theorem loop_ret {cond : Env → Res Bool} {post body : Env → Res Flow} {fuel : Nat} {e : Env} {vs : List Val}
    (hc : cond e = .ok true) (hb : body e = .ok (.ret vs)) : loop cond post body (fuel + 1) e = .ok (.ret vs) := by
  simp [loop, hc, hb, bind_ok, again_ret]

/-! ### Short texts -/

@[src] theorem str_empty : str "" = [] := by decide +kernel
@[src] theorem str_slash : str "/" = [47] := by decide +kernel
@[src] theorem str_mark : str "'" = [39] := by decide +kernel
@[src] theorem str_blank : str " " = [32] := by decide +kernel

/-! ### Operations -/

@[src] theorem lib_len (W : World) (x : Val) : libSem W .len [x] =
    lenSem x := rfl

@[src] theorem lib_index (W : World) (x : Val) (i : Val) : libSem W .index [x, i] =
    match i.toInt? with
    | some i => indexSem x i
    | none => .stuck := rfl

@[src] theorem lib_setIndex (W : World) (x : Val) (i : Val) (v : Val) : libSem W .setIndex [x, i, v] =
    match i.toInt? with
    | some i => setIndexSem x i v
    | none => .stuck := rfl

@[src] theorem lib_slice (W : World) (x : Val) (lo : Int) (hi : Int) : libSem W .slice [x, .int lo, .int hi] =
    sliceSem x lo hi := rfl

@[src] theorem lib_sliceFrom (W : World) (x : Val) (lo : Int) : libSem W .sliceFrom [x, .int lo] =
    sliceFromSem x lo := rfl

@[src] theorem lib_append (W : World) (a : Bytes) (b : Bytes) : libSem W .append [.bytes a, .bytes b] =
    .ok (.bytes (a ++ b)) := rfl

@[src] theorem lib_append2 (W : World) (a : List Val) (b : List Val) : libSem W .append [.list a, .list b] =
    .ok (.list (a ++ b)) := rfl

@[src] theorem lib_snoc (W : World) (a : Bytes) (c : UInt8) : libSem W .snoc [.bytes a, .u8 c] =
    .ok (.bytes (a ++ [c])) := rfl

@[src] theorem lib_snoc2 (W : World) (a : List Val) (v : Val) : libSem W .snoc [.list a, v] =
    .ok (.list (a ++ [v])) := rfl

@[src] theorem lib_copyInto (W : World) (x : Val) (lo : Int) (hi : Int) (src : Bytes) : libSem W .copyInto [x, .int lo, .int hi, .bytes src] =
    copyIntoSem x lo hi src := rfl

@[src] theorem lib_makeBytes (W : World) (n : Int) : libSem W .makeBytes [.int n] =
    if n < 0 then .panic else .ok (.bytes (List.replicate n.toNat 0)) := rfl

@[src] theorem lib_makeList (W : World) (z : Val) (n : Int) : libSem W .makeList [z, .int n] =
    if n < 0 then .panic else .ok (.list (List.replicate n.toNat z)) := rfl

@[src] theorem lib_bytesOf (W : World) (l : List Val) : libSem W .bytesOf l =
    orStuck .bytes (bytesIn l) := rfl

theorem lib_toArray (W : World) (n : Int) (b : Bytes) : libSem W .toArray [.int n, .bytes b] =
    if b.length < n then .panic else .ok (.bytes (b.take n.toNat)) := rfl

@[src] theorem lib_toStr (W : World) (b : Bytes) : libSem W .toStr [.bytes b] =
    .ok (.str b) := rfl

@[src] theorem lib_toBytes (W : World) (s : Bytes) : libSem W .toBytes [.str s] =
    .ok (.bytes s) := rfl

@[src] theorem lib_conv (W : World) (t : IT) (x : Val) : libSem W (.conv t) [x] =
    match x.toInt? with
    | some i => .ok (convTo t i)
    | none => .stuck := rfl

@[src] theorem lib_isNil (W : World) (e : Option Err) : libSem W .isNil [.err e] =
    .ok (.bool e.isNone) := rfl

@[src] theorem lib_isNil2 (W : World)  : libSem W .isNil [.nil] =
    .ok (.bool true) := rfl

@[src] theorem lib_deref (W : World)  : libSem W .deref [.nil] =
    .panic := rfl

@[src] theorem lib_deref_big (W : World) (n : Nat) : libSem W .deref [.big n] = .ok (.big n) := rfl

@[src] theorem lib_deref_list (W : World) (l : List Val) : libSem W .deref [.list l] = .ok (.list l) := rfl

@[src] theorem lib_field (W : World) (i : Nat) (l : List Val) : libSem W (.field i) [.list l] =
    match l[i]? with
    | some v => .ok v
    | none => .stuck := rfl

@[src] theorem lib_setField (W : World) (i : Nat) (l : List Val) (v : Val) : libSem W (.setField i) [.list l, v] =
    if i < l.length then .ok (.list (l.set i v)) else .stuck := rfl

@[src] theorem lib_tableGet (W : World) (l : List Val) (k z : Val) : libSem W .tableGet [.list l, k, z] =
    match tableGet l k with
    | some v => .ok (.list [v, .bool true])
    | none => .ok (.list [z, .bool false]) := rfl

@[src] theorem lib_tableSet (W : World) (l : List Val) (k v : Val) : libSem W .tableSet [.list l, k, v] =
    .ok (.list (tableSet l k v)) := rfl

@[src] theorem lib_mapGet (W : World) (l : List Val) (k : Int) : libSem W .mapGet [.list l, .int k] =
    mapGetSem l k := rfl

@[src] theorem lib_wordMapGet (W : World) (w : Bytes) : libSem W .wordMapGet [.str w] =
    match W.S.map w with
    | some i => .ok (.list [.int i, .bool true])
    | none => .ok (.list [.int 0, .bool false]) := rfl

@[src] theorem lib_pvtFlagGet (W : World) (v : UInt32) : libSem W .pvtFlagGet [.u32 v] =
    .ok (regGet (W.R.pvtFlag v)) := rfl

@[src] theorem lib_pubFlagGet (W : World) (v : UInt32) : libSem W .pubFlagGet [.u32 v] =
    .ok (regGet (W.R.pubFlag v)) := rfl

@[src] theorem lib_pathTableGet (W : World) (p : Bytes) : libSem W .pathTableGet [.str p] =
    match pathTable.find? (fun e => e.1 == p) with
    | some e => .ok (.list [.list (e.2.map .vb), .bool true])
    | none => .ok (.list [.list [], .bool false]) := rfl

@[src] theorem lib_vbPath (W : World) (v : VersionBytes) : libSem W .vbPath [.vb v] =
    .ok (.str v.path) := rfl

@[src] theorem lib_vbPvtKeyFlag (W : World) (v : VersionBytes) : libSem W .vbPvtKeyFlag [.vb v] =
    .ok (.u32 v.pvtKeyFlag) := rfl

@[src] theorem lib_vbPubKeyFlag (W : World) (v : VersionBytes) : libSem W .vbPubKeyFlag [.vb v] =
    .ok (.u32 v.pubKeyFlag) := rfl

@[src] theorem lib_bigNew (W : World) (i : Int) : libSem W .bigNew [.i64 i] =
    if i < 0 then .stuck else .ok (.big i.toNat) := rfl

@[src] theorem lib_bigSetBytes (W : World) (b : Bytes) : libSem W .bigSetBytes [.bytes b] =
    .ok (.big (setBytes b)) := rfl

@[src] theorem lib_bigBytes (W : World) (n : Nat) : libSem W .bigBytes [.big n] =
    .ok (.bytes (bigBytes n)) := rfl

@[src] theorem lib_bigMul (W : World) (a : Val) (b : Val) : libSem W .bigMul [a, b] =
    big2 (fun a b => .ok (.big (a * b))) a b := rfl

@[src] theorem lib_bigOr (W : World) (a : Val) (b : Val) : libSem W .bigOr [a, b] =
    big2 (fun a b => .ok (.big (a ||| b))) a b := rfl

@[src] theorem lib_bigAnd (W : World) (a : Val) (b : Val) : libSem W .bigAnd [a, b] =
    big2 (fun a b => .ok (.big (a &&& b))) a b := rfl

@[src] theorem lib_bigDiv (W : World) (a : Val) (b : Val) : libSem W .bigDiv [a, b] =
    big2 (fun a b => if b = 0 then .panic else .ok (.big (a / b))) a b := rfl

@[src] theorem lib_bigAdd (W : World) (a : Val) (b : Val) : libSem W .bigAdd [a, b] =
    big2 (fun a b => .ok (.big (a + b))) a b := rfl

@[src] theorem lib_bigSub (W : World) (a : Val) (b : Val) : libSem W .bigSub [a, b] =
    big2 (fun a b => if a < b then .stuck else .ok (.big (a - b))) a b := rfl

@[src] theorem lib_bigMod (W : World) (a : Val) (b : Val) : libSem W .bigMod [a, b] =
    big2 (fun a b => if b = 0 then .panic else .ok (.big (a % b))) a b := rfl

@[src] theorem lib_bigExp (W : World) (a : Val) (b : Val) : libSem W .bigExp [a, b] =
    big2 (fun a b => .ok (.big (a ^ b))) a b := rfl

theorem lib_bigModSqrt (W : World) (y : Nat) (a : Nat) (p : Nat) : libSem W .bigModSqrt [.big y, .big a, .big p] =
    if p = secpP then
      if a % secpP ≠ 0 ∧ powMod secpP (a % secpP) ((secpP - 1) / 2) ≠ 1 then .ok (.big y) else .ok (.big (modSqrt a))
    else .stuck := rfl

@[src] theorem lib_bigBit (W : World) (n : Nat) (i : Int) : libSem W .bigBit [.big n, .int i] =
    if i < 0 then .panic else .ok (.uint (UInt64.ofNat (n / 2 ^ i.toNat % 2))) := rfl

@[src] theorem lib_bigUint64 (W : World) (n : Nat) : libSem W .bigUint64 [.big n] =
    .ok (.u64 (UInt64.ofNat n)) := rfl

@[src] theorem lib_bigSign (W : World) (n : Nat) : libSem W .bigSign [.big n] =
    .ok (.int (if n = 0 then 0 else 1)) := rfl

@[src] theorem lib_bigCmp (W : World) (a : Val) (b : Val) : libSem W .bigCmp [a, b] =
    big2 (fun a b => .ok (.int (ordInt (compare a b)))) a b := rfl

@[src] theorem lib_hmacNew (W : World) (k : Bytes) : libSem W .hmacNew [.bytes k] =
    .ok (.hash .hmacSha512 k []) := rfl

@[src] theorem lib_hashWrite (W : World) (k : HashKind) (key : Bytes) (buf : Bytes) (b : Bytes) : libSem W .hashWrite [.hash k key buf, .bytes b] =
    .ok (.hash k key (buf ++ b)) := rfl

@[src] theorem lib_hashSum (W : World) (k : HashKind) (key : Bytes) (buf : Bytes) : libSem W .hashSum [.hash k key buf] =
    .ok (.bytes (hashSumSem W.H k key buf)) := rfl

@[src] theorem lib_sha256 (W : World) (b : Bytes) : libSem W .sha256 [.bytes b] =
    .ok (.bytes (W.H.sha256 b)) := rfl

@[src] theorem lib_dblSha256 (W : World) (b : Bytes) : libSem W .dblSha256 [.bytes b] =
    .ok (.bytes (W.H.sha256 (W.H.sha256 b))) := rfl

@[src] theorem lib_baseMult (W : World) (k : Bytes) : libSem W .baseMult [.bytes k] =
    .ok (.list [.big (scalarBaseMult k).1, .big (scalarBaseMult k).2]) := rfl

@[src] theorem lib_curveAdd (W : World) (a : Nat) (b : Nat) (c : Nat) (d : Nat) : libSem W .curveAdd [.big a, .big b, .big c, .big d] =
    if 256 ^ 32 ≤ a ∨ 256 ^ 32 ≤ b ∨ 256 ^ 32 ≤ c ∨ 256 ^ 32 ≤ d then .stuck else .ok (.list [.big (curveAdd (a, b) (c, d)).1, .big (curveAdd (a, b) (c, d)).2]) := rfl

@[src] theorem lib_pbkdf2 (W : World) (pw : Bytes) (salt : Bytes) (iter : Int) (len : Int) : libSem W .pbkdf2 [.bytes pw, .bytes salt, .int iter, .int len] =
    .ok (.bytes (pbkdf2Key (W.H.hmacSha512 pw) 64 salt iter.toNat len.toNat)) := rfl

@[src] theorem lib_randRead (W : World) (b : Bytes) : libSem W .randRead [.bytes b] =
    .ok (.bytes (W.read b.length)) := rfl

@[src] theorem lib_hexEncode (W : World) (b : Bytes) : libSem W .hexEncode [.bytes b] =
    .ok (.str (hexEncode b)) := rfl

@[src] theorem lib_hexDecode (W : World) (s : Bytes) : libSem W .hexDecode [.str s] =
    match Bips.hexDecode s with
    | some b => .ok (.list [.bytes b, .err none])
    | none => .ok (.list [.bytes [], .err (some .hexDecode)]) := rfl

@[src] theorem lib_b58Encode (W : World) (b : Bytes) : libSem W .b58Encode [.bytes b] =
    .ok (.str (b58Encode b)) := rfl

@[src] theorem lib_b58Decode (W : World) (s : Bytes) : libSem W .b58Decode [.str s] =
    .ok (.bytes (b58Decode s)) := rfl

@[src] theorem lib_getUint16 (W : World) (b : Bytes) : libSem W .getUint16 [.bytes b] =
    if b.length < 2 then .panic else .ok (.u16 (UInt16.ofNat (setBytes (b.take 2)))) := rfl

@[src] theorem lib_getUint32 (W : World) (b : Bytes) : libSem W .getUint32 [.bytes b] =
    if b.length < 4 then .panic else .ok (.u32 (getUint32 (b.take 4))) := rfl

@[src] theorem lib_putUint16 (W : World) (b : Bytes) (v : UInt16) : libSem W .putUint16 [.bytes b, .u16 v] =
    if b.length < 2 then .panic else .ok (.bytes (beBytes 2 v.toNat ++ b.drop 2)) := rfl

@[src] theorem lib_putUint32 (W : World) (b : Bytes) (v : UInt32) : libSem W .putUint32 [.bytes b, .u32 v] =
    if b.length < 4 then .panic else .ok (.bytes (putUint32 v ++ b.drop 4)) := rfl

@[src] theorem lib_bytesCompare (W : World) (a : Bytes) (b : Bytes) : libSem W .bytesCompare [.bytes a, .bytes b] =
    .ok (.int (ordInt (bytesCompare a b))) := rfl

@[src] theorem lib_split (W : World) (s : Bytes) (c : UInt8) : libSem W .split [.str s, .str [c]] =
    .ok (.list ((splitByte c s).map .str)) := rfl

@[src] theorem lib_split_two (W : World) (s : Bytes) (c d : UInt8) (h : c ≠ d) : libSem W .split [.str s, .str [c, d]] =
    .ok (.list ((splitTwo c d s).map .str)) := if_neg h

@[src] theorem lib_contains_text (W : World) (s : Bytes) (c d : UInt8) (t : Bytes) : libSem W .contains [.str s, .str (c :: d :: t)] =
    .ok (.bool (containsText s (c :: d :: t))) := rfl

@[src] theorem lib_contains (W : World) (s : Bytes) (c : UInt8) : libSem W .contains [.str s, .str [c]] =
    .ok (.bool (s.contains c)) := rfl

@[src] theorem lib_replaceAll (W : World) (s : Bytes) (c : UInt8) : libSem W .replaceAll [.str s, .str [c], .str []] =
    .ok (.str (removeByte c s)) := rfl

@[src] theorem lib_join (W : World) (l : List Val) (c : UInt8) : libSem W .join [.list l, .str [c]] =
    orStuck .str ((strings l).map (joinByte c)) := rfl

@[src] theorem lib_repeatStr (W : World) (s : Bytes) (n : Int) : libSem W .repeatStr [.str s, .int n] =
    if n < 0 then .panic else .ok (.str (List.replicate n.toNat s).flatten) := rfl

@[src] theorem lib_fields (W : World) (s : Bytes) : libSem W .fields [.str s] =
    .ok (.list ((fields s).map .str)) := rfl

@[src] theorem lib_trimSpace (W : World) (s : Bytes) : libSem W .trimSpace [.str s] =
    .ok (.str (trimSpace s)) := rfl

@[src] theorem lib_parseUint (W : World) (s : Bytes) : libSem W .parseUint [.str s, .int 10, .int 32] =
    .ok (.list [.u64 (UInt64.ofNat (parseUint s).1), .err (parseUint s).2]) := rfl

@[src] theorem lib_crc32 (W : World) (b : Bytes) : libSem W .crc32 [.bytes b] = .ok (.u32 (UInt32.ofNat (checksumIEEE b))) := rfl

theorem readFile_any (W : World) (b n : Bytes) : libSem W .readFile [.bytes b, .str n] =
    if n = str "slip-0044.md" then .ok (.list [.bytes b, .err none]) else .stuck := rfl

@[src] theorem lib_readFile (W : World) (b : Bytes) : libSem W .readFile [.bytes b, .str (str "slip-0044.md")] =
    .ok (.list [.bytes b, .err none]) := (readFile_any W b _).trans (if_pos rfl)

@[src] theorem lib_goPanic (W : World) (l : List Val) : libSem W .goPanic l = .panic := rfl

@[src] theorem lib_isNil3 (W : World) (i : Int) : libSem W .isNil [.int i] = .ok (.bool false) := rfl
@[src] theorem lib_neg (W : World) (i : Int) : libSem W .neg [.int i] = .ok (.int (wrapInt (-i))) := rfl
@[src] theorem lib_negF (W : World) (q : ℚ) : libSem W .neg [.f32 q] = .ok (.f32 (-q)) := rfl
@[src] theorem lib_toF32 (W : World) (i : Int) : libSem W .toF32 [.int i] = f32Res i := rfl
@[src] theorem lib_toF32F (W : World) (q : ℚ) : libSem W .toF32 [.f64 q] = f32Res q := rfl
theorem lib_truncF (W : World) (q : ℚ) (h : -2 ^ 63 ≤ q ∧ q < 2 ^ 63) : libSem W .truncF [.f32 q] = .ok (.int (Ui.truncate q)) := if_pos h
@[src] theorem lib_timeSub (W : World) (a b : Int) : libSem W .timeSub [.int a, .int b] = .ok (.int (Ui.timeSub a b)) := rfl
@[src] theorem lib_seconds (W : World) (d : Int) : libSem W .seconds [.int d] = .ok (.f64 (Ui.seconds d)) := rfl
@[src] theorem lib_atoi (W : World) (s : Bytes) : libSem W .atoi [.str s] =
    .ok (.list [.int (atoi s).1, .err (atoi s).2]) := rfl

@[src] theorem lib_sprintf (W : World) (f : Bytes) (vs : List Val) : libSem W .sprintf (.str f :: vs) =
    orStuck .str (sprintf f vs) := rfl

@[src] theorem lib_errorf (W : World) (f : Bytes) (w : Bytes) : libSem W .errorf [.str f, .str w] =
    if f = str "word `%v` not found in reverse map" then .ok (.err (some (.unknownWord w))) else .stuck := rfl

@[src] theorem lib_regexMatch (W : World) (p : Bytes) (s : Bytes) : libSem W .regexMatch [.str p, .str s] =
    match patternOf p with
    | some r => .ok (.bool (r.rmatch s))
    | none => .stuck := rfl

@[src] theorem lib_regexReplaceAll (W : World) (p : Bytes) (s : Bytes) : libSem W .regexReplaceAll [.str p, .str s, .str []] =
    if p = str "\\s" then .ok (.str (s.filter fun c => !isReSpace c)) else .stuck := rfl

theorem lib_toArray_eq (W : World) {b : Bytes} {n : Int} (h : (b.length : Int) = n) : libSem W .toArray [.int n, .bytes b] = .ok (.bytes b) := by
  rw [lib_toArray, if_neg (by omega), List.take_of_length_le (by omega)]

theorem lib_toArray_ge (W : World) {b : Bytes} {n : Int} (h : n ≤ b.length) :
    libSem W .toArray [.int n, .bytes b] = .ok (.bytes (b.take n.toNat)) := by
  rw [lib_toArray, if_neg (by omega)]

theorem lib_toArray_slice (W : World) {b : Bytes} {n : Int} {lo hi : Nat} (h1 : hi ≤ b.length) (h : ((hi - lo : Nat) : Int) = n) :
    libSem W .toArray [.int n, .bytes (slice b lo hi)] = .ok (.bytes (slice b lo hi)) :=
  lib_toArray_eq W (by rw [slice_length _ _ _ h1]; exact h)

/-- `new(big.Int).ModSqrt(a, P)`. -/
@[src] theorem lib_bigModSqrt_zero (W : World) (a : Nat) : libSem W .bigModSqrt [.big 0, .big a, .big secpP] = .ok (.big (modSqrt a)) := by
  rw [lib_bigModSqrt, if_pos rfl]
  split
  · next h =>
    rw [modSqrt, if_neg h.1, if_neg h.2]
  · rfl

end Bips.Src
