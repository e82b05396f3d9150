import Verif.Model.GenCode
/-!
A calculator for the polynomials that the generated functions compute.

An index is a number `16 * k + s`: `s` is its space; indices with `k < 32` are the axes of an array,
the others are summed.  A monomial is a coefficient `n / 24 ^ k`, the summed indices and a product of
tensors with indices; a polynomial is a list of monomials.  `symRun` follows the statements of a
generated function with polynomials in place of arrays.  `Run.lean` proves that the arrays then have
the values of the polynomials, for all sizes and all values.

The functions are written for evaluation by the kernel.  The canonical form of a monomial is found with
hints, which `tools/hints.py` writes; they need no proof, as the result is checked.
-/

namespace Ebcc

noncomputable section

/-- A tensor with indices. -/
abbrev TFac := Nat × List Nat

/-- A monomial; `key` is a code of the factors. -/
structure TMono where
  key : Nat
  n : Int
  k : Nat
  ds : List Nat
  fs : List TFac

abbrev TPoly := List TMono

/-- The spaces of the axes, and the elements. -/
abbrev TVar := List Nat × TPoly

/-- The symmetries of a tensor: permutations of its axes, and whether they change the sign. -/
abbrev TSym := Nat → List (List Nat × Bool)

/-! The functions below are written with recursors, which the kernel evaluates several times as fast as
`match`; the equations of each follow. -/

/-- `if c then t else e`. -/
local macro "sel!" c:term:max t:term:max e:term:max : term => `(@Bool.rec (fun _ => _) $e $t $c)

/-- `match x with | none => a | some v => f v`. -/
local macro "opt!" x:term:max a:term:max f:term:max : term => `(@Option.rec _ (fun _ => _) $a $f $x)

/-- `match x with | [] => a | b :: l => f b l`. -/
local macro "lst!" x:term:max a:term:max f:term:max : term =>
  `(@List.rec _ (fun _ => _) $a (fun b l _ => $f b l) $x)

/-- `match x with | (a, b) => f a b`. -/
local macro "pr!" x:term:max f:term:max : term => `(@Prod.rec _ _ (fun _ => _) $f $x)

/-- `i in l`. -/
def memB (i : Nat) (l : List Nat) : Bool :=
  @List.rec Nat (fun _ => Bool) false (fun a _ ih => sel! (Nat.beq a i) true ih) l

/-- `l = m`. -/
def eqNats (l : List Nat) : List Nat → Bool :=
  @List.rec Nat (fun _ => List Nat → Bool) (fun m => lst! m true (fun _ _ => false))
    (fun a _ ih m => lst! m false (fun b m' => sel! (Nat.beq a b) (ih m') false)) l

def eqFacs (l : List TFac) : List TFac → Bool :=
  @List.rec TFac (fun _ => List TFac → Bool) (fun m => lst! m true (fun _ _ => false))
    (fun a _ ih m => lst! m false (fun b m' =>
      sel! (Nat.beq a.1 b.1) (sel! (eqNats a.2 b.2) (ih m') false) false)) l

def nodupB (l : List Nat) : Bool :=
  @List.rec Nat (fun _ => Bool) true (fun a l ih => sel! (memB a l) false ih) l

def lookupN (i : Nat) (l : List (Nat × Nat)) : Option Nat :=
  @List.rec (Nat × Nat) (fun _ => Option Nat) none
    (fun p _ ih => pr! p (fun a b => sel! (Nat.beq a i) (some b) ih)) l

/-- `l[k]`, or `d` behind the end. -/
def nthD {α : Type} (d : α) (l : List α) : Nat → α :=
  @List.rec α (fun _ => Nat → α) (fun _ => d)
    (fun a _ ih k => @Nat.rec (fun _ => α) a (fun k _ => ih k) k) l

/-- `l[k]`, if there is one. -/
def nthO {α : Type} (l : List α) : Nat → Option α :=
  @List.rec α (fun _ => Nat → Option α) (fun _ => none)
    (fun a _ ih k => @Nat.rec (fun _ => Option α) (some a) (fun k _ => ih k) k) l

def mapL {α β : Type} (f : α → β) (l : List α) : List β :=
  @List.rec α (fun _ => List β) [] (fun a _ ih => f a :: ih) l

def allL {α : Type} (f : α → Bool) (l : List α) : Bool :=
  @List.rec α (fun _ => Bool) true (fun a _ ih => sel! (f a) ih false) l

def app {α : Type} (l m : List α) : List α :=
  @List.rec α (fun _ => List α) m (fun a _ ih => a :: ih) l

/-- `[l[k] for k in p]`. -/
def permBy {α : Type} (d : α) (l : List α) (p : List Nat) : List α :=
  mapL (nthD d l) p

/-! ### Evaluation

`forceNat n k` is `k n`; the kernel evaluates `n` before it goes on with `k`. -/

def forceNat {α : Type} (n : Nat) (k : Nat → α) : α :=
  @Nat.rec (fun _ => α) (k (nat_lit 0)) (fun m _ => k (Nat.succ m)) n

def forceInt {α : Type} (n : Int) (k : Int → α) : α :=
  @Int.rec (fun _ => α) (fun m => forceNat m fun m => k (.ofNat m))
    (fun m => forceNat m fun m => k (.negSucc m)) n

def forceNats {α : Type} (l : List Nat) : (List Nat → α) → α :=
  @List.rec Nat (fun _ => (List Nat → α) → α) (fun k => k [])
    (fun a _ ih k => forceNat a fun a => ih fun l => k (a :: l)) l

def forcePairs {α : Type} (l : List (Nat × Nat)) : (List (Nat × Nat) → α) → α :=
  @List.rec (Nat × Nat) (fun _ => (List (Nat × Nat) → α) → α) (fun k => k [])
    (fun p _ ih k => pr! p (fun x y => forceNat x fun x => forceNat y fun y => ih fun l => k ((x, y) :: l))) l

def forceFacs {α : Type} (l : List TFac) : (List TFac → α) → α :=
  @List.rec TFac (fun _ => (List TFac → α) → α) (fun k => k [])
    (fun p _ ih k => pr! p (fun t is => forceNat t fun t => forceNats is fun is => ih fun l => k ((t, is) :: l))) l

def forceMono {α : Type} (m : TMono) (f : TMono → α) : α :=
  @TMono.rec (fun _ => α) (fun key n k ds fs => forceNat key fun key => forceInt n fun n =>
    forceNat k fun k => forceNats ds fun ds => forceFacs fs fun fs => f ⟨key, n, k, ds, fs⟩) m

/-! ### Canonical form

The canonical form of a monomial is found by placing its factors in some order, applying a symmetry to
each, and numbering the summed indices in the order of occurrence.  Order and symmetries come from a
hint: a number with the digits `64 * position + symmetry` to the base 1024, first factor first. -/

/-- Numbers the summed indices in the order of occurrence. -/
def numberIxs {α : Type} (l : List Nat) :
    List (Nat × Nat) → Nat → (List (Nat × Nat) → Nat → α) → α :=
  @List.rec Nat (fun _ => List (Nat × Nat) → Nat → (List (Nat × Nat) → Nat → α) → α)
    (fun mp cnt k => k mp cnt)
    (fun i _ ih mp cnt k =>
      sel! (Nat.ble (nat_lit 512) i)
        (opt! (lookupN i mp)
          (forceNat (Nat.add (Nat.mul (Nat.add (nat_lit 32) cnt) (nat_lit 16)) (Nat.mod i (nat_lit 16)))
            fun j => forceNat (Nat.succ cnt) fun cnt => ih ((i, j) :: mp) cnt k)
          (fun _ => ih mp cnt k))
        (ih mp cnt k)) l

def numberFacs {α : Type} (l : List TFac) : List (Nat × Nat) → Nat → (List (Nat × Nat) → α) → α :=
  @List.rec TFac (fun _ => List (Nat × Nat) → Nat → (List (Nat × Nat) → α) → α)
    (fun mp _ k => k mp)
    (fun f _ ih mp cnt k => numberIxs f.2 mp cnt fun mp cnt => ih mp cnt k) l

/-- The new name of an index. -/
def rhoOf (mp : List (Nat × Nat)) (i : Nat) : Nat :=
  sel! (Nat.ble (nat_lit 512) i) (opt! (lookupN i mp) i (fun j => j)) i

def renameFacs (mp : List (Nat × Nat)) (fs : List TFac) : List TFac :=
  mapL (fun f => pr! f (fun t is => (t, mapL (rhoOf mp) is))) fs

/-- Increasing numbers from `lo` to 1535. -/
def goodDs (l : List Nat) : Nat → Bool :=
  @List.rec Nat (fun _ => Nat → Bool) (fun _ => true)
    (fun a _ ih lo => sel! (Nat.ble lo a) (sel! (Nat.ble (nat_lit 1536) a) false (ih (Nat.succ a))) false) l

def removeNat (f : Nat) (l : List Nat) : Option (List Nat) :=
  @List.rec Nat (fun _ => Option (List Nat)) none
    (fun g l ih => sel! (Nat.beq f g) (some l) (opt! ih none (fun m => some (g :: m)))) l

def permNats (l : List Nat) : List Nat → Bool :=
  @List.rec Nat (fun _ => List Nat → Bool) (fun m => lst! m true (fun _ _ => false))
    (fun f _ ih m => opt! (removeNat f m) false (fun m => ih m)) l

/-- The indices of the axes. -/
def frees (k : Nat) (l : List Nat) : List Nat :=
  @List.rec Nat (fun _ => Nat → List Nat) (fun _ => [])
    (fun s _ ih k => Nat.add (Nat.mul (nat_lit 16) k) s :: ih (Nat.succ k)) l k

/-- The digits of a hint, one for each factor. -/
def hintDigits (l : List TFac) : Nat → List Nat :=
  @List.rec TFac (fun _ => Nat → List Nat) (fun _ => [])
    (fun _ _ ih h => Nat.mod h (nat_lit 1024) :: ih (Nat.div h (nat_lit 1024))) l

def eqLen (l : List Nat) : List Nat → Bool :=
  @List.rec Nat (fun _ => List Nat → Bool) (fun m => lst! m true (fun _ _ => false))
    (fun _ _ ih m => lst! m false (fun _ m' => ih m')) l

/-- Places the factors and applies symmetries; the sign is returned as well. -/
def arrange {α : Type} (sy : TSym) (fs : List TFac) (l : List Nat) :
    (List TFac → Bool → Option α) → Option α :=
  @List.rec Nat (fun _ => (List TFac → Bool → Option α) → Option α) (fun k => k [] false)
    (fun d _ ih k =>
      opt! (nthO fs (Nat.div d (nat_lit 64))) none (fun f => pr! f (fun t is =>
        opt! (nthO (sy t) (Nat.mod d (nat_lit 64))) none (fun q => pr! q (fun p s =>
          sel! (eqLen is p)
            (forceNat t fun t => forceNats (permBy (nat_lit 0) is p) fun js => ih fun gs s' => k ((t, js) :: gs) (sel! s (sel! s' false true) s'))
            none))))) l

/-- The indices of the factors are axes or summed. -/
def scopedB (fr ds : List Nat) (fs : List TFac) : Bool :=
  allL (fun f => allL (fun i => sel! (memB i ds) true (memB i fr)) f.2) fs

def keyIxs (l : List Nat) : Nat → Nat :=
  @List.rec Nat (fun _ => Nat → Nat) (fun c => c)
    (fun i _ ih c => ih (Nat.add (Nat.mul c (nat_lit 1024)) i)) l

def keyOf (l : List TFac) : Nat → Nat :=
  @List.rec TFac (fun _ => Nat → Nat) (fun c => c)
    (fun f _ ih c => ih (keyIxs f.2 (Nat.add (Nat.mul c (nat_lit 1024)) f.1))) l

/-- A monomial before it is brought to canonical form: `n`, `k`, summed indices and factors. -/
abbrev TRaw := Int × Nat × List Nat × List TFac

/-- The positions of a list. -/
def countUp {α : Type} (k : Nat) (l : List α) : List Nat :=
  @List.rec α (fun _ => Nat → List Nat) (fun _ => []) (fun _ _ ih k => k :: ih (Nat.succ k)) l k

/-- The second components, last first. -/
def sndRev (l : List (Nat × Nat)) : List Nat → List Nat :=
  @List.rec (Nat × Nat) (fun _ => List Nat → List Nat) (fun acc => acc)
    (fun p _ ih acc => pr! p (fun _ b => ih (b :: acc))) l

/-- The canonical form of a monomial, by a hint. -/
def canonMono (sy : TSym) (r : TRaw) (hint : Nat) : Option TMono :=
  pr! r (fun n r => pr! r (fun k r => pr! r (fun ds fs =>
    forceFacs fs fun fs => forceNats ds fun ds => forceNats (hintDigits fs hint) fun digs =>
    sel! (permNats (mapL (fun d => Nat.div d (nat_lit 64)) digs) (countUp (nat_lit 0) fs))
      (arrange sy fs digs fun gs s =>
        numberFacs gs [] (nat_lit 0) fun mp => forceNats (sndRev mp []) fun ds' =>
        sel! (permNats (mapL (rhoOf mp) ds) ds')
          (sel! (goodDs ds' (nat_lit 512))
            (sel! (allL (fun d => sel! (Nat.ble (nat_lit 512) d)
                (Nat.beq (Nat.mod (rhoOf mp d) (nat_lit 16)) (Nat.mod d (nat_lit 16))) false) ds)
              (forceFacs (renameFacs mp gs) fun fs' =>
                some ⟨keyOf fs' (nat_lit 0), sel! s (Int.neg n) n, k, ds', fs'⟩)
              none)
            none)
          none)
      none)))

/-! ### Polynomials -/

def addCoef (n : Int) (k : Nat) (n' : Int) (k' : Nat) : Int × Nat :=
  sel! (Nat.ble k k')
    (Int.add (Int.mul n (Int.ofNat (Nat.pow (nat_lit 24) (Nat.sub k' k)))) n', k')
    (Int.add n (Int.mul n' (Int.ofNat (Nat.pow (nat_lit 24) (Nat.sub k k')))), k)

def isZero (n : Int) : Bool :=
  @Int.rec (fun _ => Bool) (fun m => Nat.beq m (nat_lit 0)) (fun _ => false) n

/-- The same factors and summed indices. -/
def sameMono (a m : TMono) : Bool :=
  sel! (Nat.beq a.key m.key) (sel! (eqFacs a.fs m.fs) (eqNats a.ds m.ds) false) false

def insMono (m : TMono) (l : TPoly) : TPoly :=
  @List.rec TMono (fun _ => TPoly) (sel! (isZero m.n) [] [m])
    (fun a l ih =>
      sel! (sameMono a m)
        (pr! (addCoef a.n a.k m.n m.k) (fun n k =>
          forceInt n fun n => forceNat k fun k => sel! (isZero n) l (⟨a.key, n, k, a.ds, a.fs⟩ :: l)))
        (a :: ih)) l

/-- The list with its spine evaluated. -/
def forceSpine {α β : Type} (l : List α) : (List α → β) → β :=
  @List.rec α (fun _ => (List α → β) → β) (fun k => k [])
    (fun a _ ih k => ih fun l => k (a :: l)) l

def insAll (p q : TPoly) : TPoly :=
  @List.rec TMono (fun _ => TPoly → TPoly) (fun p => p) (fun m _ ih p => ih (insMono m p)) q p

def scaleMono (n : Int) (k : Nat) (m : TMono) : TMono := ⟨m.key, Int.mul m.n n, Nat.add m.k k, m.ds, m.fs⟩

def isOne (n : Int) : Bool :=
  @Int.rec (fun _ => Bool) (fun m => Nat.beq m (nat_lit 1)) (fun _ => false) n

def scalePoly (n : Int) (k : Nat) (p : TPoly) : TPoly :=
  sel! (sel! (Nat.beq k (nat_lit 0)) (isOne n) false) p (mapL (scaleMono n k) p)

/-- Brings monomials to canonical form; the state holds the hints. -/
abbrev TCanon (σ : Type) := TRaw → σ → Option (TPoly × σ)

/-- The opposite monomial is the same. -/
def oppositeB (a b : TMono) : Bool :=
  sel! (eqFacs a.fs b.fs)
    (sel! (eqNats a.ds b.ds) (sel! (isZero (Int.add a.n b.n)) (Nat.beq a.k b.k) false) false)
    false

/-- Hints from a list.  A hint 0 and two more hints show that a monomial is zero, as it equals its
opposite. -/
def canonByHints (sy : TSym) : TCanon (List Nat) := fun r hs =>
  lst! hs none (fun h hs =>
    sel! (Nat.beq h (nat_lit 0))
      (lst! hs none (fun h1 hs => lst! hs none (fun h2 hs =>
        opt! (canonMono sy r (Nat.pred h1)) none (fun a =>
          opt! (canonMono sy r (Nat.pred h2)) none (fun b =>
            sel! (oppositeB a b) (some ([], hs)) none)))))
      (opt! (canonMono sy r (Nat.pred h)) none (fun m => some ([m], hs))))

/-- Adds the canonical forms of monomials to a polynomial. -/
def canonAll {σ : Type} (cn : TCanon σ) (l : List TRaw) : TPoly → σ → Option (TPoly × σ) :=
  @List.rec TRaw (fun _ => TPoly → σ → Option (TPoly × σ)) (fun p st => some (p, st))
    (fun r _ ih p st =>
      opt! (cn r st) none (fun q => pr! q (fun q st =>
        lst! q (ih p st) (fun m _ => forceMono m fun m => ih (insMono m p) st)))) l

/-- Substitution for the indices of an operand: axes by `li`, summed indices by new ones. -/
def substIx (li : List Nat) (off : Nat) (i : Nat) : Nat :=
  sel! (Nat.ble (nat_lit 512) i) (Nat.add i (Nat.mul (nat_lit 16) off))
    (nthD (nat_lit 0) li (Nat.div i (nat_lit 16)))

def substFs (li : List Nat) (off : Nat) (fs : List TFac) : List TFac :=
  mapL (fun f => pr! f (fun t is => (t, mapL (substIx li off) is))) fs

/-- The product with a monomial of one more operand. -/
def prodMono (li : List Nat) (off : Nat) (m : TMono) (r : TRaw) : TRaw :=
  pr! r (fun n r => pr! r (fun k r => pr! r (fun ds fs =>
    (Int.mul m.n n, Nat.add m.k k, app (mapL (substIx li off) m.ds) ds, app (substFs li off m.fs) fs))))

/-- The product of polynomials, before canonical form. -/
def prods (l : List (List Nat × TPoly)) : Nat → List TRaw :=
  @List.rec (List Nat × TPoly) (fun _ => Nat → List TRaw) (fun _ => [(1, 0, [], [])])
    (fun o _ ih off => pr! o (fun li p =>
      @List.rec TRaw (fun _ => List TRaw) []
        (fun r _ ih' => app (mapL (fun m => prodMono li off m r) p) ih') (ih (Nat.add off (nat_lit 64))))) l

/-! ### Expressions and statements -/

abbrev TEnv := List (Nat × TVar)

def getVar (x : Nat) (l : TEnv) : Option TVar :=
  @List.rec (Nat × TVar) (fun _ => Option TVar) none
    (fun p _ ih => pr! p (fun y v => sel! (Nat.beq y x) (some v) ih)) l

/-- Sets a variable, `x` in the place it had before. -/
def setVar {α : Type} (x : Nat) (v : TVar) (l : TEnv) : (TEnv → α) → α :=
  @List.rec (Nat × TVar) (fun _ => (TEnv → α) → α) (fun k => k [(x, v)])
    (fun p l ih k => pr! p (fun y w => sel! (Nat.beq y x) (k ((x, v) :: l)) (ih fun l => k ((y, w) :: l)))) l

def delVar {α : Type} (x : Nat) (l : TEnv) : (TEnv → α) → α :=
  @List.rec (Nat × TVar) (fun _ => (TEnv → α) → α) (fun k => k [])
    (fun p _ ih k => pr! p (fun y w => sel! (Nat.beq y x) (ih k) (ih fun l => k ((y, w) :: l)))) l

/-- The operands of a contraction: labels and variables. -/
def getVars {α : Type} (env : TEnv) (l : List (Nat × List Nat)) :
    (List (List Nat × TVar) → Option α) → Option α :=
  @List.rec (Nat × List Nat) (fun _ => (List (List Nat × TVar) → Option α) → Option α) (fun k => k [])
    (fun p _ ih k => pr! p (fun y ls => opt! (getVar y env) none (fun v =>
      forceNats ls fun ls => ih fun r => k ((ls, v) :: r)))) l

/-- Adds the labels of an operand with spaces `sp` to the table of labels and spaces. -/
def labsTbl {α : Type} (ls : List Nat) :
    List Nat → List (Nat × Nat) → (List (Nat × Nat) → Option α) → Option α :=
  @List.rec Nat (fun _ => List Nat → List (Nat × Nat) → (List (Nat × Nat) → Option α) → Option α)
    (fun sp tbl k => lst! sp (k tbl) (fun _ _ => none))
    (fun l _ ih sp tbl k => lst! sp none (fun s sp =>
      opt! (lookupN l tbl)
        (sel! (Nat.ble (nat_lit 52) l) none (sel! (Nat.ble (nat_lit 16) s) none (ih sp ((l, s) :: tbl) k)))
        (fun s' => sel! (Nat.beq s' s) (ih sp tbl k) none))) ls

/-- The table of labels and spaces of a contraction. -/
def opsTbl {α : Type} (vs : List (List Nat × TVar)) :
    List (Nat × Nat) → (List (Nat × Nat) → Option α) → Option α :=
  @List.rec (List Nat × TVar) (fun _ => List (Nat × Nat) → (List (Nat × Nat) → Option α) → Option α)
    (fun tbl k => k tbl)
    (fun o _ ih tbl k => labsTbl o.1 o.2.1 tbl fun tbl => ih tbl k) vs

/-- The spaces of the labels of the result. -/
def outSpaces {α : Type} (tbl : List (Nat × Nat)) (out : List Nat) : (List Nat → Option α) → Option α :=
  @List.rec Nat (fun _ => (List Nat → Option α) → Option α) (fun k => k [])
    (fun l _ ih k => opt! (lookupN l tbl) none (fun s => ih fun sp => k (s :: sp))) out

/-- The first position of a label, `d` on. -/
def posN (l : Nat) (out : List Nat) : Nat → Option Nat :=
  @List.rec Nat (fun _ => Nat → Option Nat) (fun _ => none)
    (fun a _ ih d => sel! (Nat.beq a l) (some d) (ih (Nat.succ d))) out

/-- The index for a label: the axis of the result, or a summed index. -/
def labelIx (out : List Nat) (l s : Nat) : Nat :=
  opt! (posN l out (nat_lit 0)) (Nat.add (Nat.mul (nat_lit 16) (Nat.add (nat_lit 64) l)) s)
    (fun k => Nat.add (Nat.mul (nat_lit 16) k) s)

/-- The table of labels and indices. -/
def ixTbl {α : Type} (out : List Nat) (tbl : List (Nat × Nat)) : (List (Nat × Nat) → α) → α :=
  @List.rec (Nat × Nat) (fun _ => (List (Nat × Nat) → α) → α) (fun k => k [])
    (fun p _ ih k => pr! p (fun l s => forceNat (labelIx out l s) fun i => ih fun r => k ((l, i) :: r))) tbl

/-- The summed indices. -/
def summedIxs (ixt : List (Nat × Nat)) : List Nat :=
  @List.rec (Nat × Nat) (fun _ => List Nat) []
    (fun p _ ih => pr! p (fun _ i => sel! (Nat.ble (nat_lit 512) i) (i :: ih) ih)) ixt

def lookD (ixt : List (Nat × Nat)) (l : Nat) : Nat := opt! (lookupN l ixt) (nat_lit 0) (fun i => i)

/-- The operands with indices for labels. -/
def forceOps {α : Type} (ixt : List (Nat × Nat)) (vs : List (List Nat × TVar)) :
    (List (List Nat × TPoly) → α) → α :=
  @List.rec (List Nat × TVar) (fun _ => (List (List Nat × TPoly) → α) → α) (fun k => k [])
    (fun o _ ih k => forceNats (mapL (lookD ixt) o.1) fun li => ih fun l => k ((li, o.2.2) :: l)) vs

/-- A contraction of polynomials. -/
def symEinV {σ : Type} (cn : TCanon σ) (vs : List (List Nat × TVar)) (out : List Nat) (st : σ) :
    Option (TVar × σ) :=
  opsTbl vs [] fun tbl => forceNats out fun out => outSpaces tbl out fun osp =>
    sel! (nodupB out)
      (sel! (Nat.ble (List.length out) (nat_lit 32))
        (ixTbl out tbl fun ixt => forceNats (summedIxs ixt) fun summed => forceOps ixt vs fun args =>
          opt! (canonAll cn (mapL (fun r => pr! r (fun n r => pr! r (fun k r => pr! r (fun ds fs =>
              (n, k, app summed ds, fs))))) (prods args (nat_lit 128))) [] st) none
            (fun q => pr! q (fun p st => forceSpine p fun p => some ((osp, p), st))))
        none)
      none

def symEin {σ : Type} (cn : TCanon σ) (env : TEnv) (ops : List (Nat × List Nat)) (out : List Nat) (st : σ) :
    Option (TVar × σ) :=
  lst! ops none (fun _ _ => getVars env ops fun vs => symEinV cn vs out st)

/-- A transpose is a contraction of one operand. -/
def symTrV {σ : Type} (cn : TCanon σ) (v : TVar) (perm : List Nat) (st : σ) : Option (TVar × σ) :=
  forceNats (countUp (nat_lit 0) v.1) fun ls =>
    sel! (permNats perm ls) (symEinV cn [(ls, v)] perm st) none

def symExpr {σ : Type} (cn : TCanon σ) (env : TEnv) (st : σ) : GenExpr → Option (TVar × σ)
  | .cp y => match getVar y env with
    | none => none
    | some v => some (v, st)
  | .tr y perm => match getVar y env with
    | none => none
    | some v => symTrV cn v perm st
  | .ein ops out => symEin cn env ops out st

/-- The coefficient as `n / 24 ^ k`. -/
def convCoef (num : Int) (den : Nat) : Option (Int × Nat) :=
  bif Nat.beq den 1 then some (num, 0)
  else bif Nat.beq den 0 then none
  else bif Nat.beq (24 % den) 0 then some (num * ((24 / den : Nat) : Int), 1)
  else bif Nat.beq (576 % den) 0 then some (num * ((576 / den : Nat) : Int), 2)
  else none

/-- The identity matrix: the tensor 15 with the two axes. -/
def deltaFac (s : Nat) : List TFac := [(15, [s, Nat.add 16 s])]

/-- One statement; `rho` identifies spaces of the function with spaces of the indices. -/
def symStmt {σ α : Type} (cn : TCanon σ) (rho : Nat → Nat) (env : TEnv) (st : σ) (s : GenStmt)
    (k : TEnv → σ → Option α) : Option α :=
  match s with
  | .del x => match getVar x env with
    | none => none
    | some _ => delVar x env fun env => k env st
  | .zeros x sp =>
    bif sp.all (fun s => Nat.blt (rho s) 16) then
      bif Nat.ble sp.length 32 then setVar x (sp.map rho, []) env fun env => k env st else none
    else none
  | .eye x s =>
    bif Nat.blt (rho s) 16 then
      forceNat (rho s) fun s => setVar x ([s, s], [⟨keyOf (deltaFac s) 0, 1, 0, [], deltaFac s⟩]) env fun env => k env st
    else none
  | .set x e num den =>
    match symExpr cn env st e, convCoef num den with
    | some (v, st), some c =>
      forceSpine (scalePoly c.1 c.2 v.2) fun p => setVar x (v.1, p) env fun env => k env st
    | _, _ => none
  | .add x e num den =>
    match symExpr cn env st e, convCoef num den, getVar x env with
    | some (v, st), some c, some w =>
      bif eqNats v.1 w.1 then
        forceSpine (insAll w.2 (scalePoly c.1 c.2 v.2)) fun p => setVar x (w.1, p) env fun env => k env st
      else none
    | _, _, _ => none

def symRun {σ : Type} (cn : TCanon σ) (rho : Nat → Nat) (l : List GenStmt) : TEnv → σ → Option (TEnv × σ) :=
  @List.rec GenStmt (fun _ => TEnv → σ → Option (TEnv × σ)) (fun env st => some (env, st))
    (fun s _ ih env st => symStmt cn rho env st s ih) l

/-- An argument: the spaces of the axes, and the elements by monomials. -/
abbrev TArg := List Nat × List TRaw

def symArg {σ : Type} (cn : TCanon σ) (v : TArg) (st : σ) : Option (TVar × σ) :=
  bif v.1.all (fun s => Nat.blt s 16) then
    bif Nat.ble v.1.length 32 then
      bif v.2.all (fun r => scopedB (frees 0 v.1) r.2.2.1 r.2.2.2 && nodupB r.2.2.1 && r.2.2.1.all (Nat.ble 512)) then
        match canonAll cn v.2 [] st with
        | none => none
        | some (p, st) => forceNats v.1 fun sp => forceSpine p fun p => some ((sp, p), st)
      else none
    else none
  else none

/-- The arguments as polynomials. -/
def symBind {σ : Type} (vals : List Char → σ → Option (TVar × σ)) :
    List (List Char) → Nat → TEnv → σ → Option (TEnv × σ)
  | [], _, env, st => some (env, st)
  | name :: l, k, env, st =>
    match vals name st with
    | none => none
    | some (v, st) => symBind vals l (k + 1) ((k, v) :: env) st

/-- Arguments given by monomials. -/
def baseVals {σ : Type} (cn : TCanon σ) (vals : List Char → Option TArg) (name : List Char) (st : σ) :
    Option (TVar × σ) :=
  match vals name with
  | none => none
  | some v => symArg cn v st

def symCollect (env : TEnv) : List (List Char × Nat) → Option (Dict (List Char) TVar)
  | [] => some []
  | (name, x) :: l =>
    match getVar x env, symCollect env l with
    | some v, some r => some ((name, v) :: r)
    | _, _ => none

/-- A call with polynomials. -/
def GenFun.sym {σ : Type} (g : GenFun) (cn : TCanon σ) (rho : Nat → Nat)
    (vals : List Char → σ → Option (TVar × σ)) (st : σ) : Option (Dict (List Char) TVar × σ) :=
  match symBind vals g.args 0 [] st with
  | none => none
  | some (env, st) => match symRun cn rho g.body env st with
    | none => none
    | some (env, st) => match symCollect env g.ret with
      | none => none
      | some r => some (r, st)

/-- The polynomials are equal. -/
def polyEq (p q : TPoly) : Bool :=
  match insAll p (q.map (scaleMono (-1) 0)) with
  | [] => true
  | _ :: _ => false

/-! ### Relations between results -/

/-- `num / den * result[indices]`: the result of the first or of the second function with a name, and
the positions of its indices among the indices of the relation. -/
structure TTerm where
  num : Int
  den : Nat
  second : Bool
  name : List Char
  perm : List Nat

/-- A relation: the spaces of the indices, and terms with the sum zero. -/
abbrev TRel := List Nat × List TTerm

/-- The result with its axes permuted. -/
def symPerm {σ : Type} (cn : TCanon σ) (v : TVar) (perm sp : List Nat) (st : σ) : Option (TVar × σ) :=
  bif eqNats perm (countUp 0 v.1) then some (v, st)
  else bif allL (fun k => memB k (countUp 0 sp)) perm then symEinV cn [(perm, v)] (countUp 0 sp) st else none

/-- Adds the terms of a relation. -/
def polyTerms {σ : Type} (cn : TCanon σ) (r u : Dict (List Char) TVar) (sp : List Nat) :
    List TTerm → TPoly → σ → Option (TPoly × σ)
  | [], p, st => some (p, st)
  | t :: l, p, st =>
    match (bif t.second then u else r).get? t.name, convCoef t.num t.den with
    | some v, some c => match symPerm cn v t.perm sp st with
      | some (w, st) =>
        bif eqNats w.1 sp then
          forceSpine (insAll p (scalePoly c.1 c.2 w.2)) fun p => polyTerms cn r u sp l p st
        else none
      | none => none
    | _, _ => none

/-- The relations hold. -/
def symRels {σ : Type} (cn : TCanon σ) (r u : Dict (List Char) TVar) : List TRel → σ → Bool
  | [], _ => true
  | (sp, l) :: rels, st =>
    match polyTerms cn r u sp l [] st with
    | some ([], st) => symRels cn r u rels st
    | _ => false

/-- The results of two functions fulfil relations. -/
def checkPair {σ : Type} (cn : TCanon σ) (st : σ) (f : GenFun) (rho : Nat → Nat)
    (fvals : List Char → Option TArg) (g : GenFun) (rho' : Nat → Nat) (gvals : List Char → Option TArg)
    (rels : List TRel) : Bool :=
  match f.sym cn rho (baseVals cn fvals) st with
  | none => false
  | some (r, st) => match g.sym cn rho' (baseVals cn gvals) st with
    | none => false
    | some (u, st) => symRels cn r u rels st

/-- The results of one function fulfil relations. -/
def checkOne {σ : Type} (cn : TCanon σ) (st : σ) (f : GenFun) (rho : Nat → Nat)
    (fvals : List Char → Option TArg) (rels : List TRel) : Bool :=
  match f.sym cn rho (baseVals cn fvals) st with
  | none => false
  | some (r, st) => symRels cn r [] rels st

end

end Ebcc
