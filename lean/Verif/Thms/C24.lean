import Verif.Lemmas.Ansatz
import Mathlib.Data.Fintype.Basic

/-!
C24: the cluster ranks of an ansatz.
-/

namespace Ebcc

/-- The excitation classes; quadruples are one class, or two classes for restricted spin. -/
inductive Cls where
  | S | D | T | tl | tp | Q | Qa | Qb
deriving DecidableEq

/-- Occupied indices of a class. -/
def Cls.occ : Cls → List Char
  | S => ['o'] | D => ['o', 'o'] | T => ['o', 'o', 'o'] | tl => ['o', 'o', 'O'] | tp => ['O', 'O', 'O']
  | _ => ['o', 'o', 'o', 'o']

/-- Virtual indices of a class. -/
def Cls.vir : Cls → List Char
  | S => ['v'] | D => ['v', 'v'] | T => ['v', 'v', 'v'] | tl => ['v', 'v', 'V'] | tp => ['V', 'V', 'V']
  | _ => ['v', 'v', 'v', 'v']

/-- The rank of a class. -/
def Cls.rank : Cls → Nat
  | S => 1 | D => 2 | T => 3 | tl => 3 | tp => 3 | _ => 4

/-- The number in the name of a class. -/
def Cls.suffix : Cls → List Char
  | S => ['1'] | D => ['2'] | T => ['3'] | tl => ['3'] | tp => ['3'] | Q => ['4'] | Qa => ['4', 'a'] | Qb => ['4', 'b']

/-- The letter in front of the number. -/
def symbolOf : Which → Char
  | .t => 't' | .l => 'l' | _ => 'r'

/-- The slices an operator should have. -/
def Cls.slices (c : Cls) : Which → List Char
  | .t => c.occ ++ c.vir
  | .ee => c.occ ++ c.vir
  | .l => c.vir ++ c.occ
  | .ip => c.occ ++ c.vir.dropLast
  | .ea => c.vir ++ c.occ.dropLast

/-- The slices that quadruples have in fact. -/
def Cls.slicesAsIs (c : Cls) (w : Which) : List Char :=
  if c = .Q ∨ c = .Qa ∨ c = .Qb then c.occ ++ c.vir else c.slices w

/-- The entry of a class. -/
def Cls.entry (w : Which) (c : Cls) : Rank := (symbolOf w :: c.suffix, c.slicesAsIs w, c.rank)

/-- The classes named in the part of the ansatz behind the method type. -/
def Named (spin : SpinType) (body : List Char) : Cls → Prop
  | .S => 'S' ∈ body ∨ '2' ∈ body ∨ '3' ∈ body ∨ '4' ∈ body
  | .D => 'D' ∈ body ∨ '2' ∈ body ∨ '3' ∈ body ∨ '4' ∈ body
  | .T => 'T' ∈ body ∨ '3' ∈ body ∨ '4' ∈ body
  | .tl => LoneT body
  | .tp => PrimedT body
  | .Q => spin ≠ .R ∧ ('Q' ∈ body ∨ '4' ∈ body)
  | .Qa => spin = .R ∧ ('Q' ∈ body ∨ '4' ∈ body)
  | .Qb => spin = .R ∧ ('Q' ∈ body ∨ '4' ∈ body)

/-- A class is named twice. -/
def NamedTwice (body : List Char) : Prop :=
  ('4' ∈ body ∧ '3' ∈ body) ∨ ('4' ∈ body ∧ '2' ∈ body) ∨ ('3' ∈ body ∧ '2' ∈ body) ∨
  ('S' ∈ body ∧ ('2' ∈ body ∨ '3' ∈ body ∨ '4' ∈ body)) ∨
  ('D' ∈ body ∧ ('2' ∈ body ∨ '3' ∈ body ∨ '4' ∈ body)) ∨
  ('T' ∈ body ∧ ('3' ∈ body ∨ '4' ∈ body)) ∨ ('Q' ∈ body ∧ '4' ∈ body)

theorem entry_injective (w : Which) : Function.Injective (Cls.entry w) := by
  intro c d
  cases w <;> cases c <;> cases d <;> first | exact fun _ => rfl | exact fun h => absurd h (by decide)

/-- The classes collected by the search. -/
def clsList (r p4p q4 q3 q2 qQ qt qT qD qS : Bool) : List Cls :=
  let q : List Cls := if r then [.Qa, .Qb] else [.Q]
  (if p4p then [.tp] else []) ++ ((if q4 then [.S, .D, .T] ++ q else []) ++
  ((if q3 then [.S, .D, .T] else []) ++ ((if q2 then [.S, .D] else []) ++ ((if qQ then q else []) ++
  ((if qt then [.tl] else []) ++ ((if qT then [.T] else []) ++ ((if qD then [.D] else []) ++
  (if qS then [.S] else []))))))))

set_option synthInstance.maxSize 2000 in
set_option synthInstance.maxHeartbeats 200000 in
theorem clsList_nodup : ∀ r p q4 q3 q2 qQ qt qT qD qS : Bool,
    (clsList r p q4 q3 q2 qQ qt qT qD qS).Nodup ↔
      ¬ ((q4 ∧ q3) ∨ (q4 ∧ q2) ∨ (q3 ∧ q2) ∨ (qS ∧ (q2 ∨ q3 ∨ q4)) ∨ (qD ∧ (q2 ∨ q3 ∨ q4)) ∨
        (qT ∧ (q3 ∨ q4)) ∨ (qQ ∧ q4)) := by decide +kernel

open Classical in
theorem collect_eq (spin : SpinType) (which : Which) (op : List Char) :
    collectRanks (fermionNotations spin which) (sortedByLenRev ((fermionNotations spin which).map Prod.fst)) op
      = (clsList (decide (spin = .R)) (decide (PrimedT op)) (decide ('4' ∈ op)) (decide ('3' ∈ op))
          (decide ('2' ∈ op)) (decide ('Q' ∈ op)) (decide (LoneT op)) (decide ('T' ∈ op)) (decide ('D' ∈ op))
          (decide ('S' ∈ op))).map (Cls.entry which) := by
  rw [fermion_collect]
  have e1 : ((fermionNotations spin which).lookup ['t', '\'']).getD [] = [Cls.tp].map (Cls.entry which) := by
    cases which <;> rfl
  have e2 : ((fermionNotations spin which).lookup ['t']).getD [] = [Cls.tl].map (Cls.entry which) := by
    cases which <;> rfl
  have e3 : ((fermionNotations spin which).lookup ['S']).getD [] = [Cls.S].map (Cls.entry which) := by
    cases which <;> rfl
  have e4 : ((fermionNotations spin which).lookup ['D']).getD [] = [Cls.D].map (Cls.entry which) := by
    cases which <;> rfl
  have e5 : ((fermionNotations spin which).lookup ['T']).getD [] = [Cls.T].map (Cls.entry which) := by
    cases which <;> rfl
  have e6 : ((fermionNotations spin which).lookup ['2']).getD [] = [Cls.S, .D].map (Cls.entry which) := by
    cases which <;> rfl
  have e7 : ((fermionNotations spin which).lookup ['3']).getD [] = [Cls.S, .D, .T].map (Cls.entry which) := by
    cases which <;> rfl
  have e8 : ((fermionNotations spin which).lookup ['Q']).getD []
      = (if decide (spin = .R) then [Cls.Qa, .Qb] else [.Q]).map (Cls.entry which) := by
    cases spin <;> cases which <;> rfl
  have e9 : ((fermionNotations spin which).lookup ['4']).getD []
      = ([Cls.S, .D, .T] ++ (if decide (spin = .R) then [Cls.Qa, .Qb] else [.Q])).map (Cls.entry which) := by
    cases spin <;> cases which <;> rfl
  rw [e1, e2, e3, e4, e5, e6, e7, e8, e9]
  unfold clsList
  simp only [List.map_append, apply_ite (List.map (Cls.entry which)), List.map_nil, decide_eq_true_eq]

set_option synthInstance.maxSize 2000 in
set_option synthInstance.maxHeartbeats 200000 in
theorem mem_clsList_bool : ∀ r p q4 q3 q2 qQ qt qT qD qS : Bool,
      (Cls.S ∈ clsList r p q4 q3 q2 qQ qt qT qD qS ↔ qS ∨ q2 ∨ q3 ∨ q4) ∧
      (Cls.D ∈ clsList r p q4 q3 q2 qQ qt qT qD qS ↔ qD ∨ q2 ∨ q3 ∨ q4) ∧
      (Cls.T ∈ clsList r p q4 q3 q2 qQ qt qT qD qS ↔ qT ∨ q3 ∨ q4) ∧
      (Cls.tl ∈ clsList r p q4 q3 q2 qQ qt qT qD qS ↔ qt) ∧
      (Cls.tp ∈ clsList r p q4 q3 q2 qQ qt qT qD qS ↔ p) ∧
      (Cls.Q ∈ clsList r p q4 q3 q2 qQ qt qT qD qS ↔ ¬ r ∧ (qQ ∨ q4)) ∧
      (Cls.Qa ∈ clsList r p q4 q3 q2 qQ qt qT qD qS ↔ r ∧ (qQ ∨ q4)) ∧
      (Cls.Qb ∈ clsList r p q4 q3 q2 qQ qt qT qD qS ↔ r ∧ (qQ ∨ q4)) := by decide +kernel

open Classical in
theorem mem_clsList (spin : SpinType) (op : List Char) (c : Cls) :
    c ∈ clsList (decide (spin = .R)) (decide (PrimedT op)) (decide ('4' ∈ op)) (decide ('3' ∈ op))
          (decide ('2' ∈ op)) (decide ('Q' ∈ op)) (decide (LoneT op)) (decide ('T' ∈ op)) (decide ('D' ∈ op))
          (decide ('S' ∈ op)) ↔ Named spin op c := by
  obtain ⟨k1, k2, k3, k4, k5, k6, k7, k8⟩   := mem_clsList_bool (decide (spin = .R)) (decide (PrimedT op))
    (decide ('4' ∈ op)) (decide ('3' ∈ op)) (decide ('2' ∈ op)) (decide ('Q' ∈ op)) (decide (LoneT op))
    (decide ('T' ∈ op)) (decide ('D' ∈ op)) (decide ('S' ∈ op))
  cases c
  · rw [k1]; simp [Named]
  · rw [k2]; simp [Named]
  · rw [k3]; simp [Named]
  · rw [k4]; simp [Named]
  · rw [k5]; simp [Named]
  · rw [k6]; simp [Named]
  · rw [k7]; simp [Named]
  · rw [k8]; simp [Named]

/-- The search accepts exactly the names that name no class twice, and returns one entry for each class
named, by rank. -/
theorem search_spec (spin : SpinType) (which : Which) (op : List Char) :
    (finishRanks (collectRanks (fermionNotations spin which)
        (sortedByLenRev ((fermionNotations spin which).map Prod.fst)) op) = .error .modelNotImplemented ↔
      NamedTwice op) ∧
    (¬ NamedTwice op → ∃ rs, finishRanks (collectRanks (fermionNotations spin which)
        (sortedByLenRev ((fermionNotations spin which).map Prod.fst)) op) = .ok rs ∧
      rs.Nodup ∧ rs.Pairwise (fun a b => a.2.2 ≤ b.2.2) ∧
      ∀ e, e ∈ rs ↔ ∃ c, Named spin op c ∧ e = Cls.entry which c) := by
  classical
  rw [collect_eq]
  have hnd := clsList_nodup (decide (spin = .R)) (decide (PrimedT op))
    (decide ('4' ∈ op)) (decide ('3' ∈ op)) (decide ('2' ∈ op)) (decide ('Q' ∈ op)) (decide (LoneT op))
    (decide ('T' ∈ op)) (decide ('D' ∈ op)) (decide ('S' ∈ op))
  have hmem := mem_clsList spin op
  simp only [decide_eq_true_eq] at hnd
  generalize clsList _ _ _ _ _ _ _ _ _ _ = l at hnd hmem
  have hnd' : (l.map (Cls.entry which)).Nodup ↔ ¬ NamedTwice op := by
    rw [List.nodup_map_iff (entry_injective which), hnd]
    rfl
  constructor
  · unfold finishRanks
    split
    · rename_i h
      simp only [reduceCtorEq, false_iff]
      exact hnd'.1 h
    · rename_i h
      rw [hnd', not_not] at h
      simp [h]
  · intro h
    have hfin : finishRanks (l.map (Cls.entry which)) = .ok ((l.map (Cls.entry which)).insertionSort
        fun a b => a.2.2 ≤ b.2.2) := by
      unfold finishRanks
      rw [if_pos (hnd'.2 h)]
    obtain ⟨_, h2, h3, h4⟩ := finishRanks_ok hfin
    refine ⟨_, hfin, h2, h3, fun e => ?_⟩
    rw [h4, List.mem_map]
    constructor
    · rintro ⟨c, hc, rfl⟩; exact ⟨c, (hmem c).1 hc, rfl⟩
    · rintro ⟨c, hc, rfl⟩; exact ⟨c, (hmem c).2 hc, rfl⟩

/-- The special cases of the code. -/
def Special (ansatz m : List Char) (which : Which) : Prop :=
  (m = "MP".toList ∧ (which = .t ∨ which = .l)) ∨
  (ansatz = "CCD".toList ∧ (which = .ip ∨ which = .ea ∨ which = .ee))

theorem ranks_append (m body : List Char) (hm : m ∈ methodTypes) (hb : '(' ∉ body) (spin : SpinType)
    (which : Which) (hsp : ¬ Special (m ++ body) m which) :
    fermionicClusterRanks (m ++ body) spin which =
      finishRanks (collectRanks (fermionNotations spin which)
        (sortedByLenRev ((fermionNotations spin which).map Prod.fst)) body) := by
  have hne : m ++ body ≠ [] := by
    intro h
    have : m = [] := (List.append_eq_nil_iff.1 h).1
    subst this
    revert hm; decide
  have hpar : '(' ∉ m ++ body := by
    rw [List.mem_append, not_or]
    refine ⟨?_, hb⟩
    have : ∀ m ∈ methodTypes, '(' ∉ m := by decide
    exact this m hm
  unfold fermionicClusterRanks stripPerturbative
  unfold Special at hsp
  rw [not_or] at hsp
  rw [if_neg hne, if_neg hpar]
  simp only [splitMethod_append m body hm, if_neg hsp.1, if_neg hsp.2]

/-- An ansatz made of a method type and the classes: it is rejected exactly when a class is named twice;
otherwise there is exactly one entry for each class named, without repetition and in the order of
ranks. -/
theorem C24_fermionic (m body : List Char) (hm : m ∈ methodTypes) (hb : '(' ∉ body) (spin : SpinType)
    (which : Which) (hsp : ¬ Special (m ++ body) m which) :
    (fermionicClusterRanks (m ++ body) spin which = .error .modelNotImplemented ↔ NamedTwice body) ∧
    (¬ NamedTwice body → ∃ rs, fermionicClusterRanks (m ++ body) spin which = .ok rs ∧
      rs.Nodup ∧ rs.Pairwise (fun a b => a.2.2 ≤ b.2.2) ∧
      ∀ e, e ∈ rs ↔ ∃ c, Named spin body c ∧ e = Cls.entry which c) := by
  rw [ranks_append m body hm hb spin which hsp]
  exact search_spec spin which body

/-- Møller-Plesset: only doubles, whatever follows. -/
theorem C24_mp (body : List Char) (hb : '(' ∉ body) (spin : SpinType) (which : Which)
    (hw : which = .t ∨ which = .l) :
    fermionicClusterRanks ("MP".toList ++ body) spin which = .ok [Cls.entry which .D] := by
  have hpar : '(' ∉ "MP".toList ++ body := by
    rw [List.mem_append, not_or]
    exact ⟨by decide, hb⟩
  unfold fermionicClusterRanks stripPerturbative
  rw [if_neg (by simp), if_neg hpar]
  have hccd : ¬ ("MP".toList ++ body = "CCD".toList ∧ (which = .ip ∨ which = .ea ∨ which = .ee)) := by
    rintro ⟨h, _⟩
    have := congrArg List.head? h
    simp at this
  simp only [splitMethod_append "MP".toList body (by decide), if_neg hccd]
  rw [if_pos ⟨trivial, hw⟩]
  rcases hw with rfl | rfl <;> cases spin <;> decide +kernel

/-- Equations of motion of CCD have the singles as well. -/
theorem C24_ccd (spin : SpinType) (which : Which) (hw : which = .ip ∨ which = .ea ∨ which = .ee) :
    fermionicClusterRanks "CCD".toList spin which = .ok [Cls.entry which .S, Cls.entry which .D] := by
  rcases hw with rfl | rfl | rfl <;> cases spin <;> decide +kernel

/-- Every ansatz string whatsoever: an accepted one has entries of the classes only, without repetition,
in the order of ranks. -/
theorem C24_well_formed (ansatz : List Char) (spin : SpinType) (which : Which) (rs : List Rank)
    (h : fermionicClusterRanks ansatz spin which = .ok rs) :
    rs.Nodup ∧ rs.Pairwise (fun a b => a.2.2 ≤ b.2.2) ∧ ∀ e ∈ rs, ∃ c, e = Cls.entry which c := by
  unfold fermionicClusterRanks at h
  split at h
  · cases h; simp
  · split at h
    · cases h
    · simp only at h
      generalize (splitMethod _ _).1 = mm at h
      generalize hop : (if ansatz = "CCD".toList ∧ (which = .ip ∨ which = .ea ∨ which = .ee) then ['S', 'D']
        else (if mm = "MP".toList ∧ (which = .t ∨ which = .l) then ['D'] else
          (splitMethod _ (sortedByLenRev methodTypes)).2) : List Char) = op at h
      have hs := search_spec spin which op
      by_cases ht : NamedTwice op
      · rw [hs.1.2 ht] at h; cases h
      · obtain ⟨rs', h1, h2, h3, h4⟩ := hs.2 ht
        rw [h] at h1
        cases h1
        exact ⟨h2, h3, fun e he => by obtain ⟨c, _, hc⟩ := (h4 e).1 he; exact ⟨c, hc⟩⟩

/-- The ranks increase strictly unless the ansatz names several kinds of triples or restricted
quadruples. -/
theorem C24_strictly_increasing_partial (m body : List Char) (hm : m ∈ methodTypes) (hb : '(' ∉ body)
    (spin : SpinType) (which : Which) (hsp : ¬ Special (m ++ body) m which) (rs : List Rank)
    (h : fermionicClusterRanks (m ++ body) spin which = .ok rs)
    (h3 : ¬ (Named spin body .T ∧ Named spin body .tl) ∧ ¬ (Named spin body .T ∧ Named spin body .tp) ∧
      ¬ (Named spin body .tl ∧ Named spin body .tp))
    (hq : ¬ Named spin body .Qa) : rs.Pairwise (fun a b => a.2.2 < b.2.2) := by
  have hs := C24_fermionic m body hm hb spin which hsp
  by_cases ht : NamedTwice body
  · rw [hs.1.2 ht] at h; cases h
  · obtain ⟨rs', h1, h2, h4, h5⟩ := hs.2 ht
    rw [h] at h1
    cases h1
    have hqb : ¬ Named spin body .Qb := hq
    have hqq : Named spin body .Q → ¬ Named spin body .Qa := fun h1 h2 => h1.1 h2.1
    refine (h2.and h4).imp_of_mem fun {a b} ha hb' hab => ?_
    obtain ⟨c, hc, rfl⟩ := (h5 a).1 ha
    obtain ⟨d, hd, rfl⟩ := (h5 b).1 hb'
    refine lt_of_le_of_ne hab.2 fun he => hab.1 ?_
    show Cls.entry which c = Cls.entry which d
    have he' : c.rank = d.rank := he
    congr 1
    generalize Named spin body = N at *
    cases c <;> cases d <;> first
      | rfl
      | (exfalso; revert he'; decide)
      | (exfalso; clear he' hab h5 h4 h2 h ha hb'; tauto)

/-- The slices are those of the kind of amplitude, for every class but quadruples. -/
theorem C24_slices_partial (c : Cls) (hc : c ≠ .Q ∧ c ≠ .Qa ∧ c ≠ .Qb) (which : Which) :
    (Cls.entry which c).2.1 = c.slices which := by
  cases c <;> first | rfl | exact absurd rfl hc.1 | exact absurd rfl hc.2.1 | exact absurd rfl hc.2.2

/-- The slices have as many occupied as virtual indices, one index less for IP and EA. -/
theorem C24_slice_lengths (c : Cls) : c.occ.length = c.rank ∧ c.vir.length = c.rank ∧
    (∀ x ∈ c.occ, x = 'o' ∨ x = 'O') ∧ (∀ x ∈ c.vir, x = 'v' ∨ x = 'V') := by
  cases c <;> decide

/-- The quadruples of de-excitations keep the slices of excitations: property refuted. -/
theorem C24_quadruples_not_adapted :
    fermionicClusterRanks "CCSDTQ".toList .G .l = .ok
      [("l1".toList, "vo".toList, 1), ("l2".toList, "vvoo".toList, 2), ("l3".toList, "vvvooo".toList, 3),
       ("l4".toList, "oooovvvv".toList, 4)] := by decide +kernel

/-- Two entries of the same name and rank. -/
theorem C24_two_triples :
    fermionicClusterRanks "CCSDTt'".toList .G .t = .ok
      [("t1".toList, "ov".toList, 1), ("t2".toList, "oovv".toList, 2), ("t3".toList, "OOOVVV".toList, 3),
       ("t3".toList, "ooovvv".toList, 3)] := by decide +kernel

/-! ### Bosons -/

/-- The name of a bosonic operator of rank `n`. -/
def bosonEntry (which : Which) (n : Nat) : Rank :=
  ((if which = .t then ['s'] else ['l', 's']) ++ Nat.toDigits 10 n, List.replicate n 'b', n)

/-- The bosonic ranks named in a string. -/
def BosonNamed (op : List Char) (n : Nat) : Prop :=
  (n = 1 ∧ ('S' ∈ op ∨ '2' ∈ op ∨ '3' ∈ op)) ∨ (n = 2 ∧ ('D' ∈ op ∨ '2' ∈ op ∨ '3' ∈ op)) ∨
  (n = 3 ∧ ('T' ∈ op ∨ '3' ∈ op))

/-- A bosonic rank named twice. -/
def BosonNamedTwice (op : List Char) : Prop :=
  ('3' ∈ op ∧ '2' ∈ op) ∨ ('S' ∈ op ∧ ('2' ∈ op ∨ '3' ∈ op)) ∨ ('D' ∈ op ∧ ('2' ∈ op ∨ '3' ∈ op)) ∨
  ('T' ∈ op ∧ '3' ∈ op)

/-- The ranks collected by the search. -/
def bosonList (q3 q2 qT qD qS : Bool) : List Nat :=
  (if q3 then [1, 2, 3] else []) ++ ((if q2 then [1, 2] else []) ++ ((if qT then [3] else []) ++
  ((if qD then [2] else []) ++ (if qS then [1] else []))))

theorem bosonEntry_injective (which : Which) : Function.Injective (bosonEntry which) := by
  intro a b h
  have := congrArg (fun r : Rank => r.2.2) h
  exact this

/-- Bosonic ranks: rejected exactly when a rank is named twice; otherwise one entry for each rank named,
with as many boson indices as its rank, in strictly increasing order. -/
theorem C24_bosonic (op : List Char) (hne : op ≠ []) (hb : '(' ∉ op) (which : Which) :
    (bosonicClusterRanks op which = .error .modelNotImplemented ↔ BosonNamedTwice op) ∧
    (¬ BosonNamedTwice op → ∃ rs, bosonicClusterRanks op which = .ok rs ∧
      rs.Pairwise (fun a b => a.2.2 < b.2.2) ∧
      ∀ e, e ∈ rs ↔ ∃ n, BosonNamed op n ∧ e = bosonEntry which n) := by
  have hr : bosonicClusterRanks op which = finishRanks ((bosonList (decide ('3' ∈ op)) (decide ('2' ∈ op))
      (decide ('T' ∈ op)) (decide ('D' ∈ op)) (decide ('S' ∈ op))).map (bosonEntry which)) := by
    unfold bosonicClusterRanks stripPerturbative
    rw [if_neg hne, if_neg hb]
    simp only
    rw [boson_collect]
    have e3 : ((bosonNotations which).lookup ['S']).getD [] = [1].map (bosonEntry which) := by
      cases which <;> decide
    have e4 : ((bosonNotations which).lookup ['D']).getD [] = [2].map (bosonEntry which) := by
      cases which <;> decide
    have e5 : ((bosonNotations which).lookup ['T']).getD [] = [3].map (bosonEntry which) := by
      cases which <;> decide
    have e6 : ((bosonNotations which).lookup ['2']).getD [] = [1, 2].map (bosonEntry which) := by
      cases which <;> decide
    have e7 : ((bosonNotations which).lookup ['3']).getD [] = [1, 2, 3].map (bosonEntry which) := by
      cases which <;> decide
    rw [e3, e4, e5, e6, e7]
    unfold bosonList
    simp only [List.map_append, apply_ite (List.map (bosonEntry which)), List.map_nil, decide_eq_true_eq]
  rw [hr]
  have hnd : ∀ q3 q2 qT qD qS : Bool, (bosonList q3 q2 qT qD qS).Nodup ↔
      ¬ ((q3 ∧ q2) ∨ (qS ∧ (q2 ∨ q3)) ∨ (qD ∧ (q2 ∨ q3)) ∨ (qT ∧ q3)) := by decide +kernel
  have hmem : ∀ n, n ∈ bosonList (decide ('3' ∈ op)) (decide ('2' ∈ op))
      (decide ('T' ∈ op)) (decide ('D' ∈ op)) (decide ('S' ∈ op)) ↔ BosonNamed op n := by
    intro n
    unfold bosonList BosonNamed
    by_cases h3 : '3' ∈ op <;> by_cases h2 : '2' ∈ op <;> simp only [h3, h2, decide_true, decide_false,
      if_true, List.mem_append, List.mem_ite_nil_right, List.mem_cons, List.not_mem_nil, or_false,
      decide_eq_true_eq, Bool.false_eq_true, if_false, false_or, true_or, or_true, and_true] <;> tauto
  have hnd1 := hnd (decide ('3' ∈ op)) (decide ('2' ∈ op))
      (decide ('T' ∈ op)) (decide ('D' ∈ op)) (decide ('S' ∈ op))
  simp only [decide_eq_true_eq] at hnd1
  generalize bosonList _ _ _ _ _ = l at hnd1 hmem
  have hnd' : (l.map (bosonEntry which)).Nodup ↔ ¬ BosonNamedTwice op := by
    rw [List.nodup_map_iff (bosonEntry_injective which), hnd1]
    rfl
  constructor
  · unfold finishRanks
    split
    · rename_i h
      simp only [reduceCtorEq, false_iff]
      exact hnd'.1 h
    · rename_i h
      rw [hnd', not_not] at h
      simp [h]
  · intro h
    have hfin : finishRanks (l.map (bosonEntry which)) = .ok ((l.map (bosonEntry which)).insertionSort
        fun a b => a.2.2 ≤ b.2.2) := by
      unfold finishRanks
      rw [if_pos (hnd'.2 h)]
    obtain ⟨_, h2, h3, h4⟩ := finishRanks_ok hfin
    have hm : ∀ e, e ∈ ((l.map (bosonEntry which)).insertionSort fun a b => a.2.2 ≤ b.2.2) ↔
        ∃ n, BosonNamed op n ∧ e = bosonEntry which n := by
      intro e
      rw [h4, List.mem_map]
      constructor
      · rintro ⟨c, hc, rfl⟩; exact ⟨c, (hmem c).1 hc, rfl⟩
      · rintro ⟨c, hc, rfl⟩; exact ⟨c, (hmem c).2 hc, rfl⟩
    refine ⟨_, hfin, (h2.and h3).imp_of_mem fun {a b} ha hb' hab => ?_, hm⟩
    obtain ⟨c, hc, rfl⟩ := (hm a).1 ha
    obtain ⟨d, hd, rfl⟩ := (hm b).1 hb'
    refine lt_of_le_of_ne hab.2 fun he => hab.1 ?_
    exact congrArg (bosonEntry which) he

/-! ### Coupling -/

/-- Coupling operators: one for each pair of ranks, with the slices of the bosons, the occupied and the
virtual indices, the last two exchanged for de-excitations. -/
theorem C24_coupling (nf nb : Nat) :
    couplingClusterRanks nf nb .t = .ok
      ((List.range nf).flatMap fun i => (List.range nb).map fun j =>
        ('u' :: (Nat.toDigits 10 (i + 1) ++ Nat.toDigits 10 (j + 1)),
          List.replicate (j + 1) 'b' ++ (List.replicate (i + 1) 'o' ++ List.replicate (i + 1) 'v'), i + 1, j + 1)) ∧
    couplingClusterRanks nf nb .l = .ok
      ((List.range nf).flatMap fun i => (List.range nb).map fun j =>
        ('l' :: 'u' :: (Nat.toDigits 10 (i + 1) ++ Nat.toDigits 10 (j + 1)),
          List.replicate (j + 1) 'b' ++ (List.replicate (i + 1) 'v' ++ List.replicate (i + 1) 'o'), i + 1, j + 1)) := by
  have hmap : ∀ {α β : Type} (f : α → Except PyErr β) (g : α → β) (l : List α), (∀ x, f x = .ok (g x)) →
      l.mapM f = .ok (l.map g) := by
    intro α β f g l hf
    induction l with
    | nil => rfl
    | cons x l ih => rw [List.mapM_cons, hf, ih]; rfl
  constructor
  · unfold couplingClusterRanks
    rw [hmap _ (fun p : Nat × Nat => ('u' :: (Nat.toDigits 10 p.1 ++ Nat.toDigits 10 p.2),
          List.replicate p.2 'b' ++ (List.replicate p.1 'o' ++ List.replicate p.1 'v'), p.1, p.2))]
    · rw [List.map_flatMap]; simp only [List.map_map]; rfl
    · rintro ⟨a, b⟩
      simp [adaptCouplingKey, bind, Except.bind, pure, Except.pure]
  · unfold couplingClusterRanks
    rw [hmap _ (fun p : Nat × Nat => ('l' :: 'u' :: (Nat.toDigits 10 p.1 ++ Nat.toDigits 10 p.2),
          List.replicate p.2 'b' ++ (List.replicate p.1 'v' ++ List.replicate p.1 'o'), p.1, p.2))]
    · rw [List.map_flatMap]; simp only [List.map_map]; rfl
    · rintro ⟨a, b⟩
      have e1 : (List.replicate b 'b' ++ List.replicate a 'o' ++ List.replicate a 'v').take b
          = List.replicate b 'b' := by simp
      have e2 : (List.replicate b 'b' ++ List.replicate a 'o' ++ List.replicate a 'v').drop (b + a)
          = List.replicate a 'v' := by
        rw [List.drop_left']; simp
      have e3 : ((List.replicate b 'b' ++ List.replicate a 'o' ++ List.replicate a 'v').drop b).take a
          = List.replicate a 'o' := by
        rw [List.append_assoc, List.drop_left' (by simp), List.take_left' (by simp)]
      simp only [adaptCouplingKey, e1, e2, e3, bind, Except.bind, pure, Except.pure]
      simp

/-- For IP, EA and EE the coupling is refused as soon as there is any. -/
theorem C24_coupling_eom (nf nb : Nat) (which : Which) (hw : which = .ip ∨ which = .ea ∨ which = .ee) :
    couplingClusterRanks nf nb which =
      if nf = 0 ∨ nb = 0 then .ok [] else .error .modelNotImplemented := by
  unfold couplingClusterRanks
  by_cases h : nf = 0 ∨ nb = 0
  · rw [if_pos h]
    rcases h with rfl | rfl
    · rfl
    · have : ((List.range nf).flatMap fun i => (List.range 0).map fun j => (i + 1, j + 1)) = [] := by
        induction nf with
        | zero => rfl
        | succ n ih => rw [List.range_succ, List.flatMap_append, ih]; rfl
      rw [this]; rfl
  · rw [if_neg h]
    push Not at h
    obtain ⟨n, rfl⟩ : ∃ n, nf = n + 1 := ⟨nf - 1, by omega⟩
    obtain ⟨k, rfl⟩ : ∃ n, nb = n + 1 := ⟨nb - 1, by omega⟩
    have hl : ∃ rest, ((List.range (n + 1)).flatMap fun i => (List.range (k + 1)).map fun j => (i + 1, j + 1))
        = (1, 1) :: rest := by
      rw [List.range_succ_eq_map (n := n), List.flatMap_cons, List.range_succ_eq_map (n := k), List.map_cons,
        List.cons_append]
      exact ⟨_, rfl⟩
    obtain ⟨rest, hl⟩ := hl
    rw [hl, List.mapM_cons]
    rcases hw with rfl | rfl | rfl <;> rfl

example : fermionicClusterRanks "CCSDT".toList .U .ip = .ok
    [("r1".toList, "o".toList, 1), ("r2".toList, "oov".toList, 2), ("r3".toList, "ooovv".toList, 3)] := by
  decide +kernel

example : fermionicClusterRanks "CCSDt'".toList .G .l = .ok
    [("l1".toList, "vo".toList, 1), ("l2".toList, "vvoo".toList, 2), ("l3".toList, "VVVOOO".toList, 3)] := by
  decide +kernel

example : bosonicClusterRanks "SD".toList .l = .ok [("ls1".toList, "b".toList, 1), ("ls2".toList, "bb".toList, 2)] := by
  decide +kernel

example : couplingClusterRanks 1 2 .l = .ok
    [("lu11".toList, "bvo".toList, 1, 1), ("lu12".toList, "bbvo".toList, 1, 2)] := by decide +kernel

example : fermionicClusterRanks "CC2S".toList .G .t = .error .modelNotImplemented := by decide +kernel

end Ebcc
