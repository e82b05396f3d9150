import Verif.Model.Precision
/-!
# C48 — the precision context restores the previous precision

True when the body returns, false when it raises: `C48_exception_fails`.
-/

namespace Ebcc

section
variable {D : Type}

theorem setPrecision_old (t u : Prec D) : setPrecision (oldPrecision t) u = t := by
  obtain ⟨a, b⟩ := t
  rfl

/-- Whatever the body does, including further contexts, direct changes and exceptions that it catches: if it does not
end by an exception, the settings are afterwards those of before.  What is missing for the full property is the body
that raises. -/
theorem C48_restores_partial (kw : Dict (List Char) D) (p : PrecProg D) (t : Prec D)
    (h : ∀ e, (execPrec (.within kw p) t).2.1 ≠ .raised e) : (execPrec (.within kw p) t).1 = t := by
  simp only [execPrec] at h ⊢
  cases hr : (execPrec p (setPrecision kw t)).2.1 with
  | raised e => rw [hr] at h; exact absurd rfl (h e)
  | normal => exact setPrecision_old t _
  | returned => exact setPrecision_old t _

/-- If the body raises the settings remain as the body left them, for every body. -/
theorem C48_exception_leaves (kw : Dict (List Char) D) (p : PrecProg D) (t : Prec D) (e : PyErr)
    (h : (execPrec p (setPrecision kw t)).2.1 = .raised e) :
    (execPrec (.within kw p) t).1 = (execPrec p (setPrecision kw t)).1 ∧
      (execPrec (.within kw p) t).2.1 = .raised e := by
  simp only [execPrec, h, and_self]

/-- The settings that a program should see: those of the innermost `with` statement around it. -/
def lexical : PrecProg D → Prec D → PyExit × List (Prec D)
  | .look, t => (.normal, [t])
  | .set _, _ => (.normal, [])
  | .ret, _ => (.returned, [])
  | .fail e, _ => (.raised e, [])
  | .skip, _ => (.normal, [])
  | .seq p q, t =>
    match (lexical p t).1 with
    | .normal => ((lexical q t).1, (lexical p t).2 ++ (lexical q t).2)
    | x => (x, (lexical p t).2)
  | .within kw p, t => lexical p
      ⟨(kw.get? "float".toList).getD t.float, (kw.get? "complex".toList).getD t.complex⟩
  | .attempt p, t =>
    match (lexical p t).1 with
    | .raised _ => (.normal, (lexical p t).2)
    | x => (x, (lexical p t).2)
  | .func p, t =>
    match (lexical p t).1 with
    | .raised e => (.raised e, (lexical p t).2)
    | _ => (.normal, (lexical p t).2)

/-- No direct changes, and no exception leaves a `with` statement. -/
def Orderly : PrecProg D → Prec D → Prop
  | .look, _ => True
  | .set _, _ => False
  | .ret, _ => True
  | .fail _, _ => True
  | .skip, _ => True
  | .seq p q, t => Orderly p t ∧ ((lexical p t).1 = .normal → Orderly q t)
  | .within kw p, t => Orderly p (setPrecision kw t) ∧ ∀ e, (lexical p (setPrecision kw t)).1 ≠ .raised e
  | .attempt p, t => Orderly p t
  | .func p, t => Orderly p t

/-- Every orderly program sees the settings of the innermost `with` statement, at any nesting and whether the bodies
end normally or by `return`, and leaves the settings as they were. -/
theorem C48_scoped_partial (p : PrecProg D) (t : Prec D) (h : Orderly p t) :
    execPrec p t = (t, lexical p t) := by
  induction p generalizing t with
  | look => rfl
  | set kw => exact h.elim
  | ret => rfl
  | fail e => rfl
  | skip => rfl
  | seq p q ihp ihq =>
    simp only [execPrec, lexical]
    rw [ihp t h.1]
    cases hp : (lexical p t).1 with
    | normal =>
      simp only
      rw [ihq t (h.2 hp)]
    | returned => rfl
    | raised e => rfl
  | within kw p ih =>
    simp only [execPrec, lexical]
    rw [ih _ h.1]
    cases hp : (lexical p (setPrecision kw t)).1 with
    | raised e => exact absurd hp (h.2 e)
    | normal =>
      simp only [setPrecision_old]
      rw [Prod.ext_iff]
      exact ⟨rfl, Prod.ext hp.symm rfl⟩
    | returned =>
      simp only [setPrecision_old]
      rw [Prod.ext_iff]
      exact ⟨rfl, Prod.ext hp.symm rfl⟩
  | attempt p ih =>
    simp only [execPrec, lexical]
    rw [ih t h]
    cases hp : (lexical p t).1 <;> rfl
  | func p ih =>
    simp only [execPrec, lexical]
    rw [ih t h]
    cases hp : (lexical p t).1 <;> rfl

/-- Named settings that differ. -/
def double48 : Prec Nat := ⟨64, 128⟩
def single48 : Dict (List Char) Nat := [("float".toList, 32), ("complex".toList, 64)]

/-- A body that raises, inside `try`: the program goes on in single precision. -/
theorem C48_exception_fails :
    execPrec (.seq (.attempt (.within single48 (.fail .valueError))) .look) double48
      = (⟨32, 64⟩, .normal, [⟨32, 64⟩]) ∧
    lexical (.seq (.attempt (.within single48 (.fail .valueError))) .look) double48 = (.normal, [double48]) := by
  decide +kernel

/-- Nested contexts, of which one sets only one type and one is left by `return`, inside a function. -/
example : execPrec (.seq (.func (.within single48 (.seq (.within [("float".toList, 16)] .look) (.seq .look (.seq .ret .look)))))
    .look) double48 = (double48, .normal, [⟨16, 64⟩, ⟨32, 64⟩, double48]) ∧
    Orderly (.seq (.func (.within single48 (.seq (.within [("float".toList, 16)] .look) (.seq .look (.seq .ret .look)))))
    .look) double48 := by
  refine ⟨by decide +kernel, ?_⟩
  simp [Orderly, lexical]

end

end Ebcc
