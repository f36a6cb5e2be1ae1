import Verif.Spec.Attrs
/-
Lemmas about the attribute tables, one group for each node type.
-/

namespace OCG

open AttrSpec

variable {F : Type} [FloatLike F]

set_option linter.unusedSectionVars false

namespace NullAttrs

theorem setStr_getStr_ne (a : NullAttrs) (n m : String) (v : Bytes) (h : m ≠ n) :
    (a.setStr n v).getStr m = a.getStr m := by
  rfl

theorem setStr_getI32 (a : NullAttrs) (n m : String) (v : Bytes) :
    (a.setStr n v).getI32 m = a.getI32 m := by
  rfl

theorem setStr_getF32 (a : NullAttrs) (n m : String) (v : Bytes) :
    (a.setStr n v).getF32 (F := F) m = a.getF32 (F := F) m := by
  rfl

theorem setStr_self (a : NullAttrs) (n : String) (v : Bytes) :
    (n ∈ names .null .str → (a.setStr n v).getStr n = v) ∧
    (n ∉ names .null .str → a.setStr n v = a) := by
  exact ⟨fun h => by simp [names] at h, fun _ => rfl⟩

theorem getStr_other (a : NullAttrs) (n : String) (h : n ∉ names .null .str) :
    a.getStr n = [] := by
  rfl

theorem setStr_exists (a : NullAttrs) (n m : String) (v : Bytes) :
    (a.setStr n v).attrExists m = a.attrExists m := rfl

theorem setI32_getStr (a : NullAttrs) (n m : String) (v : Int) :
    (a.setI32 n v).getStr m = a.getStr m := by
  rfl

theorem setI32_getI32_ne (a : NullAttrs) (n m : String) (v : Int) (h : m ≠ n) :
    (a.setI32 n v).getI32 m = a.getI32 m := by
  rfl

theorem setI32_getF32 (a : NullAttrs) (n m : String) (v : Int) :
    (a.setI32 n v).getF32 (F := F) m = a.getF32 (F := F) m := by
  rfl

theorem setI32_self (a : NullAttrs) (n : String) (v : Int) :
    (n ∈ names .null .i32 → (a.setI32 n v).getI32 n = v) ∧
    (n ∉ names .null .i32 → a.setI32 n v = a) := by
  exact ⟨fun h => by simp [names] at h, fun _ => rfl⟩

theorem getI32_other (a : NullAttrs) (n : String) (h : n ∉ names .null .i32) :
    a.getI32 n = 0 := by
  rfl

theorem setI32_exists (a : NullAttrs) (n m : String) (v : Int) :
    (a.setI32 n v).attrExists m = a.attrExists m := rfl

theorem setF32_getStr (a : NullAttrs) (n m : String) (v : F) :
    (a.setF32 n v).getStr m = a.getStr m := by
  rfl

theorem setF32_getI32 (a : NullAttrs) (n m : String) (v : F) :
    (a.setF32 n v).getI32 m = a.getI32 m := by
  rfl

theorem setF32_getF32_ne (a : NullAttrs) (n m : String) (v : F) (h : m ≠ n) :
    (a.setF32 n v).getF32 (F := F) m = a.getF32 (F := F) m := by
  rfl

theorem setF32_self (a : NullAttrs) (n : String) (v : F) :
    (n ∈ names .null .f32 → (a.setF32 n v).getF32 (F := F) n = v) ∧
    (n ∉ names .null .f32 → a.setF32 n v = a) := by
  exact ⟨fun h => by simp [names] at h, fun _ => rfl⟩

theorem getF32_other (a : NullAttrs) (n : String) (h : n ∉ names .null .f32) :
    a.getF32 (F := F) n = 0 := by
  rfl

theorem setF32_exists (a : NullAttrs) (n m : String) (v : F) :
    (a.setF32 n v).attrExists m = a.attrExists m := rfl

theorem exists_iff (a : NullAttrs) (n : String) :
    a.attrExists n = .exists ↔ ∃ k, n ∈ names .null k := by
  constructor
  · intro h; simp [attrExists] at h
  · rintro ⟨k, h⟩; cases k <;> simp [names] at h

end NullAttrs

namespace ReadImageAttrs

theorem setStr_getStr_ne (a : ReadImageAttrs) (n m : String) (v : Bytes) (h : m ≠ n) :
    (a.setStr n v).getStr m = a.getStr m := by
  unfold setStr
  split <;> first
    | rfl
    | (unfold getStr; split <;> first | rfl | exact absurd rfl h)

theorem setStr_getI32 (a : ReadImageAttrs) (n m : String) (v : Bytes) :
    (a.setStr n v).getI32 m = a.getI32 m := by
  unfold setStr
  split <;> rfl

theorem setStr_getF32 (a : ReadImageAttrs) (n m : String) (v : Bytes) :
    (a.setStr n v).getF32 (F := F) m = a.getF32 (F := F) m := by
  unfold setStr
  split <;> rfl

theorem setStr_self (a : ReadImageAttrs) (n : String) (v : Bytes) :
    (n ∈ names .readImage .str → (a.setStr n v).getStr n = v) ∧
    (n ∉ names .readImage .str → a.setStr n v = a) := by
  unfold setStr
  split <;> first
    | exact ⟨fun _ => rfl, fun h => absurd (by simp [names]) h⟩
    | exact ⟨fun h => by simp_all [names], fun _ => rfl⟩

theorem getStr_other (a : ReadImageAttrs) (n : String) (h : n ∉ names .readImage .str) :
    a.getStr n = [] := by
  unfold getStr
  split <;> first | rfl | exact absurd (by simp [names]) h

theorem setStr_exists (a : ReadImageAttrs) (n m : String) (v : Bytes) :
    (a.setStr n v).attrExists m = a.attrExists m := rfl

theorem setI32_getStr (a : ReadImageAttrs) (n m : String) (v : Int) :
    (a.setI32 n v).getStr m = a.getStr m := by
  unfold setI32
  split <;> rfl

theorem setI32_getI32_ne (a : ReadImageAttrs) (n m : String) (v : Int) (h : m ≠ n) :
    (a.setI32 n v).getI32 m = a.getI32 m := by
  unfold setI32
  split <;> first
    | rfl
    | (unfold getI32; split <;> first | rfl | exact absurd rfl h)

theorem setI32_getF32 (a : ReadImageAttrs) (n m : String) (v : Int) :
    (a.setI32 n v).getF32 (F := F) m = a.getF32 (F := F) m := by
  unfold setI32
  split <;> rfl

theorem setI32_self (a : ReadImageAttrs) (n : String) (v : Int) :
    (n ∈ names .readImage .i32 → (a.setI32 n v).getI32 n = v) ∧
    (n ∉ names .readImage .i32 → a.setI32 n v = a) := by
  unfold setI32
  split <;> first
    | exact ⟨fun _ => rfl, fun h => absurd (by simp [names]) h⟩
    | exact ⟨fun h => by simp_all [names], fun _ => rfl⟩

theorem getI32_other (a : ReadImageAttrs) (n : String) (h : n ∉ names .readImage .i32) :
    a.getI32 n = 0 := by
  unfold getI32
  split <;> first | rfl | exact absurd (by simp [names]) h

theorem setI32_exists (a : ReadImageAttrs) (n m : String) (v : Int) :
    (a.setI32 n v).attrExists m = a.attrExists m := rfl

theorem setF32_getStr (a : ReadImageAttrs) (n m : String) (v : F) :
    (a.setF32 n v).getStr m = a.getStr m := by
  rfl

theorem setF32_getI32 (a : ReadImageAttrs) (n m : String) (v : F) :
    (a.setF32 n v).getI32 m = a.getI32 m := by
  rfl

theorem setF32_getF32_ne (a : ReadImageAttrs) (n m : String) (v : F) (h : m ≠ n) :
    (a.setF32 n v).getF32 (F := F) m = a.getF32 (F := F) m := by
  rfl

theorem setF32_self (a : ReadImageAttrs) (n : String) (v : F) :
    (n ∈ names .readImage .f32 → (a.setF32 n v).getF32 (F := F) n = v) ∧
    (n ∉ names .readImage .f32 → a.setF32 n v = a) := by
  exact ⟨fun h => by simp [names] at h, fun _ => rfl⟩

theorem getF32_other (a : ReadImageAttrs) (n : String) (h : n ∉ names .readImage .f32) :
    a.getF32 (F := F) n = 0 := by
  rfl

theorem setF32_exists (a : ReadImageAttrs) (n m : String) (v : F) :
    (a.setF32 n v).attrExists m = a.attrExists m := rfl

theorem exists_iff (a : ReadImageAttrs) (n : String) :
    a.attrExists n = .exists ↔ ∃ k, n ∈ names .readImage k := by
  constructor
  · unfold attrExists
    split <;> intro h <;> first
      | (refine ⟨.str, ?_⟩; simp [names]; done)
      | (refine ⟨.i32, ?_⟩; simp [names]; done)
      | exact absurd h nofun
  · rintro ⟨k, h⟩
    unfold attrExists
    split <;> first
      | rfl
      | (exfalso; cases k <;> simp_all [names])

end ReadImageAttrs

namespace WriteImageAttrs

theorem setStr_getStr_ne (a : WriteImageAttrs) (n m : String) (v : Bytes) (h : m ≠ n) :
    (a.setStr n v).getStr m = a.getStr m := by
  unfold setStr
  split <;> first
    | rfl
    | (unfold getStr; split <;> first | rfl | exact absurd rfl h)

theorem setStr_getI32 (a : WriteImageAttrs) (n m : String) (v : Bytes) :
    (a.setStr n v).getI32 m = a.getI32 m := by
  unfold setStr
  split <;> rfl

theorem setStr_getF32 (a : WriteImageAttrs) (n m : String) (v : Bytes) :
    (a.setStr n v).getF32 (F := F) m = a.getF32 (F := F) m := by
  unfold setStr
  split <;> rfl

theorem setStr_self (a : WriteImageAttrs) (n : String) (v : Bytes) :
    (n ∈ names .writeImage .str → (a.setStr n v).getStr n = v) ∧
    (n ∉ names .writeImage .str → a.setStr n v = a) := by
  unfold setStr
  split <;> first
    | exact ⟨fun _ => rfl, fun h => absurd (by simp [names]) h⟩
    | exact ⟨fun h => by simp_all [names], fun _ => rfl⟩

theorem getStr_other (a : WriteImageAttrs) (n : String) (h : n ∉ names .writeImage .str) :
    a.getStr n = [] := by
  unfold getStr
  split <;> first | rfl | exact absurd (by simp [names]) h

theorem setStr_exists (a : WriteImageAttrs) (n m : String) (v : Bytes) :
    (a.setStr n v).attrExists m = a.attrExists m := rfl

theorem setI32_getStr (a : WriteImageAttrs) (n m : String) (v : Int) :
    (a.setI32 n v).getStr m = a.getStr m := by
  unfold setI32
  split <;> rfl

theorem setI32_getI32_ne (a : WriteImageAttrs) (n m : String) (v : Int) (h : m ≠ n) :
    (a.setI32 n v).getI32 m = a.getI32 m := by
  unfold setI32
  split <;> first
    | rfl
    | (unfold getI32; split <;> first | rfl | exact absurd rfl h)

theorem setI32_getF32 (a : WriteImageAttrs) (n m : String) (v : Int) :
    (a.setI32 n v).getF32 (F := F) m = a.getF32 (F := F) m := by
  unfold setI32
  split <;> rfl

theorem setI32_self (a : WriteImageAttrs) (n : String) (v : Int) :
    (n ∈ names .writeImage .i32 → (a.setI32 n v).getI32 n = v) ∧
    (n ∉ names .writeImage .i32 → a.setI32 n v = a) := by
  unfold setI32
  split <;> first
    | exact ⟨fun _ => rfl, fun h => absurd (by simp [names]) h⟩
    | exact ⟨fun h => by simp_all [names], fun _ => rfl⟩

theorem getI32_other (a : WriteImageAttrs) (n : String) (h : n ∉ names .writeImage .i32) :
    a.getI32 n = 0 := by
  unfold getI32
  split <;> first | rfl | exact absurd (by simp [names]) h

theorem setI32_exists (a : WriteImageAttrs) (n m : String) (v : Int) :
    (a.setI32 n v).attrExists m = a.attrExists m := rfl

theorem setF32_getStr (a : WriteImageAttrs) (n m : String) (v : F) :
    (a.setF32 n v).getStr m = a.getStr m := by
  rfl

theorem setF32_getI32 (a : WriteImageAttrs) (n m : String) (v : F) :
    (a.setF32 n v).getI32 m = a.getI32 m := by
  rfl

theorem setF32_getF32_ne (a : WriteImageAttrs) (n m : String) (v : F) (h : m ≠ n) :
    (a.setF32 n v).getF32 (F := F) m = a.getF32 (F := F) m := by
  rfl

theorem setF32_self (a : WriteImageAttrs) (n : String) (v : F) :
    (n ∈ names .writeImage .f32 → (a.setF32 n v).getF32 (F := F) n = v) ∧
    (n ∉ names .writeImage .f32 → a.setF32 n v = a) := by
  exact ⟨fun h => by simp [names] at h, fun _ => rfl⟩

theorem getF32_other (a : WriteImageAttrs) (n : String) (h : n ∉ names .writeImage .f32) :
    a.getF32 (F := F) n = 0 := by
  rfl

theorem setF32_exists (a : WriteImageAttrs) (n m : String) (v : F) :
    (a.setF32 n v).attrExists m = a.attrExists m := rfl

theorem exists_iff (a : WriteImageAttrs) (n : String) :
    a.attrExists n = .exists ↔ ∃ k, n ∈ names .writeImage k := by
  constructor
  · unfold attrExists
    split <;> intro h <;> first
      | (refine ⟨.str, ?_⟩; simp [names]; done)
      | (refine ⟨.i32, ?_⟩; simp [names]; done)
      | exact absurd h nofun
  · rintro ⟨k, h⟩
    unfold attrExists
    split <;> first
      | rfl
      | (exfalso; cases k <;> simp_all [names])

end WriteImageAttrs

namespace GradeAttrs

theorem setStr_getStr_ne (a : GradeAttrs F) (n m : String) (v : Bytes) (h : m ≠ n) :
    (a.setStr n v).getStr m = a.getStr m := by
  rfl

theorem setStr_getI32 (a : GradeAttrs F) (n m : String) (v : Bytes) :
    (a.setStr n v).getI32 m = a.getI32 m := by
  rfl

theorem setStr_getF32 (a : GradeAttrs F) (n m : String) (v : Bytes) :
    (a.setStr n v).getF32 m = a.getF32 m := by
  rfl

theorem setStr_self (a : GradeAttrs F) (n : String) (v : Bytes) :
    (n ∈ names .grade .str → (a.setStr n v).getStr n = v) ∧
    (n ∉ names .grade .str → a.setStr n v = a) := by
  exact ⟨fun h => by simp [names] at h, fun _ => rfl⟩

theorem getStr_other (a : GradeAttrs F) (n : String) (h : n ∉ names .grade .str) :
    a.getStr n = [] := by
  rfl

theorem setStr_exists (a : GradeAttrs F) (n m : String) (v : Bytes) :
    (a.setStr n v).attrExists m = a.attrExists m := rfl

theorem setI32_getStr (a : GradeAttrs F) (n m : String) (v : Int) :
    (a.setI32 n v).getStr m = a.getStr m := by
  unfold setI32
  split <;> rfl

theorem setI32_getI32_ne (a : GradeAttrs F) (n m : String) (v : Int) (h : m ≠ n) :
    (a.setI32 n v).getI32 m = a.getI32 m := by
  unfold setI32
  split <;> first
    | rfl
    | (unfold getI32; split <;> first | rfl | exact absurd rfl h)

theorem setI32_getF32 (a : GradeAttrs F) (n m : String) (v : Int) :
    (a.setI32 n v).getF32 m = a.getF32 m := by
  unfold setI32
  split <;> rfl

theorem setI32_self (a : GradeAttrs F) (n : String) (v : Int) :
    (n ∈ names .grade .i32 → (a.setI32 n v).getI32 n = v) ∧
    (n ∉ names .grade .i32 → a.setI32 n v = a) := by
  unfold setI32
  split <;> first
    | exact ⟨fun _ => rfl, fun h => absurd (by simp [names]) h⟩
    | exact ⟨fun h => by simp_all [names], fun _ => rfl⟩

theorem getI32_other (a : GradeAttrs F) (n : String) (h : n ∉ names .grade .i32) :
    a.getI32 n = 0 := by
  unfold getI32
  split <;> first | rfl | exact absurd (by simp [names]) h

theorem setI32_exists (a : GradeAttrs F) (n m : String) (v : Int) :
    (a.setI32 n v).attrExists m = a.attrExists m := rfl

theorem setF32_getStr (a : GradeAttrs F) (n m : String) (v : F) :
    (a.setF32 n v).getStr m = a.getStr m := by
  unfold setF32
  split <;> rfl

theorem setF32_getI32 (a : GradeAttrs F) (n m : String) (v : F) :
    (a.setF32 n v).getI32 m = a.getI32 m := by
  unfold setF32
  split <;> rfl

theorem setF32_getF32_ne (a : GradeAttrs F) (n m : String) (v : F) (h : m ≠ n) :
    (a.setF32 n v).getF32 m = a.getF32 m := by
  unfold setF32
  split <;> first
    | rfl
    | (unfold getF32; split <;> first | rfl | exact absurd rfl h)

theorem setF32_self (a : GradeAttrs F) (n : String) (v : F) :
    (n ∈ names .grade .f32 → (a.setF32 n v).getF32 n = v) ∧
    (n ∉ names .grade .f32 → a.setF32 n v = a) := by
  unfold setF32
  split <;> first
    | exact ⟨fun _ => rfl, fun h => absurd (by simp [names]) h⟩
    | exact ⟨fun h => by simp_all [names], fun _ => rfl⟩

theorem getF32_other (a : GradeAttrs F) (n : String) (h : n ∉ names .grade .f32) :
    a.getF32 n = 0 := by
  unfold getF32
  split <;> first | rfl | exact absurd (by simp [names]) h

theorem setF32_exists (a : GradeAttrs F) (n m : String) (v : F) :
    (a.setF32 n v).attrExists m = a.attrExists m := rfl

theorem exists_iff (a : GradeAttrs F) (n : String) :
    a.attrExists n = .exists ↔ ∃ k, n ∈ names .grade k := by
  constructor
  · unfold attrExists
    split <;> intro h <;> first
      | (refine ⟨.i32, ?_⟩; simp [names]; done)
      | (refine ⟨.f32, ?_⟩; simp [names]; done)
      | exact absurd h nofun
  · rintro ⟨k, h⟩
    unfold attrExists
    split <;> first
      | rfl
      | (exfalso; cases k <;> simp_all [names])

end GradeAttrs

namespace LensDistortAttrs

theorem setStr_getStr_ne (a : LensDistortAttrs F) (n m : String) (v : Bytes) (h : m ≠ n) :
    (a.setStr n v).getStr m = a.getStr m := by
  rfl

theorem setStr_getI32 (a : LensDistortAttrs F) (n m : String) (v : Bytes) :
    (a.setStr n v).getI32 m = a.getI32 m := by
  rfl

theorem setStr_getF32 (a : LensDistortAttrs F) (n m : String) (v : Bytes) :
    (a.setStr n v).getF32 m = a.getF32 m := by
  rfl

theorem setStr_self (a : LensDistortAttrs F) (n : String) (v : Bytes) :
    (n ∈ names .lensDistort .str → (a.setStr n v).getStr n = v) ∧
    (n ∉ names .lensDistort .str → a.setStr n v = a) := by
  exact ⟨fun h => by simp [names] at h, fun _ => rfl⟩

theorem getStr_other (a : LensDistortAttrs F) (n : String) (h : n ∉ names .lensDistort .str) :
    a.getStr n = [] := by
  rfl

theorem setStr_exists (a : LensDistortAttrs F) (n m : String) (v : Bytes) :
    (a.setStr n v).attrExists m = a.attrExists m := rfl

theorem setI32_getStr (a : LensDistortAttrs F) (n m : String) (v : Int) :
    (a.setI32 n v).getStr m = a.getStr m := by
  unfold setI32
  split <;> rfl

theorem setI32_getI32_ne (a : LensDistortAttrs F) (n m : String) (v : Int) (h : m ≠ n) :
    (a.setI32 n v).getI32 m = a.getI32 m := by
  unfold setI32
  split <;> first
    | rfl
    | (unfold getI32; split <;> first | rfl | exact absurd rfl h)

theorem setI32_getF32 (a : LensDistortAttrs F) (n m : String) (v : Int) :
    (a.setI32 n v).getF32 m = a.getF32 m := by
  unfold setI32
  split <;> rfl

theorem setI32_self (a : LensDistortAttrs F) (n : String) (v : Int) :
    (n ∈ names .lensDistort .i32 → (a.setI32 n v).getI32 n = v) ∧
    (n ∉ names .lensDistort .i32 → a.setI32 n v = a) := by
  unfold setI32
  split <;> first
    | exact ⟨fun _ => rfl, fun h => absurd (by simp [names]) h⟩
    | exact ⟨fun h => by simp_all [names], fun _ => rfl⟩

theorem getI32_other (a : LensDistortAttrs F) (n : String) (h : n ∉ names .lensDistort .i32) :
    a.getI32 n = 0 := by
  unfold getI32
  split <;> first | rfl | exact absurd (by simp [names]) h

theorem setI32_exists (a : LensDistortAttrs F) (n m : String) (v : Int) :
    (a.setI32 n v).attrExists m = a.attrExists m := rfl

theorem setF32_getStr (a : LensDistortAttrs F) (n m : String) (v : F) :
    (a.setF32 n v).getStr m = a.getStr m := by
  unfold setF32
  split <;> rfl

theorem setF32_getI32 (a : LensDistortAttrs F) (n m : String) (v : F) :
    (a.setF32 n v).getI32 m = a.getI32 m := by
  unfold setF32
  split <;> rfl

theorem setF32_getF32_ne (a : LensDistortAttrs F) (n m : String) (v : F) (h : m ≠ n) :
    (a.setF32 n v).getF32 m = a.getF32 m := by
  unfold setF32
  split <;> first
    | rfl
    | (unfold getF32; split <;> first | rfl | exact absurd rfl h)

theorem setF32_self (a : LensDistortAttrs F) (n : String) (v : F) :
    (n ∈ names .lensDistort .f32 → (a.setF32 n v).getF32 n = v) ∧
    (n ∉ names .lensDistort .f32 → a.setF32 n v = a) := by
  unfold setF32
  split <;> first
    | exact ⟨fun _ => rfl, fun h => absurd (by simp [names]) h⟩
    | exact ⟨fun h => by simp_all [names], fun _ => rfl⟩

theorem getF32_other (a : LensDistortAttrs F) (n : String) (h : n ∉ names .lensDistort .f32) :
    a.getF32 n = 0 := by
  unfold getF32
  split <;> first | rfl | exact absurd (by simp [names]) h

theorem setF32_exists (a : LensDistortAttrs F) (n m : String) (v : F) :
    (a.setF32 n v).attrExists m = a.attrExists m := rfl

theorem exists_iff (a : LensDistortAttrs F) (n : String) :
    a.attrExists n = .exists ↔ ∃ k, n ∈ names .lensDistort k := by
  constructor
  · unfold attrExists
    split <;> intro h <;> first
      | (refine ⟨.i32, ?_⟩; simp [names]; done)
      | (refine ⟨.f32, ?_⟩; simp [names]; done)
      | exact absurd h nofun
  · rintro ⟨k, h⟩
    unfold attrExists
    split <;> first
      | rfl
      | (exfalso; cases k <;> simp_all [names])

end LensDistortAttrs

namespace TransformAttrs

theorem setStr_getStr_ne (a : TransformAttrs F) (n m : String) (v : Bytes) (h : m ≠ n) :
    (a.setStr n v).getStr m = a.getStr m := by
  rfl

theorem setStr_getI32 (a : TransformAttrs F) (n m : String) (v : Bytes) :
    (a.setStr n v).getI32 m = a.getI32 m := by
  rfl

theorem setStr_getF32 (a : TransformAttrs F) (n m : String) (v : Bytes) :
    (a.setStr n v).getF32 m = a.getF32 m := by
  rfl

theorem setStr_self (a : TransformAttrs F) (n : String) (v : Bytes) :
    (n ∈ names .transform .str → (a.setStr n v).getStr n = v) ∧
    (n ∉ names .transform .str → a.setStr n v = a) := by
  exact ⟨fun h => by simp [names] at h, fun _ => rfl⟩

theorem getStr_other (a : TransformAttrs F) (n : String) (h : n ∉ names .transform .str) :
    a.getStr n = [] := by
  rfl

theorem setStr_exists (a : TransformAttrs F) (n m : String) (v : Bytes) :
    (a.setStr n v).attrExists m = a.attrExists m := rfl

theorem setI32_getStr (a : TransformAttrs F) (n m : String) (v : Int) :
    (a.setI32 n v).getStr m = a.getStr m := by
  unfold setI32
  split <;> rfl

theorem setI32_getI32_ne (a : TransformAttrs F) (n m : String) (v : Int) (h : m ≠ n) :
    (a.setI32 n v).getI32 m = a.getI32 m := by
  unfold setI32
  split <;> first
    | rfl
    | (unfold getI32; split <;> first | rfl | exact absurd rfl h)

theorem setI32_getF32 (a : TransformAttrs F) (n m : String) (v : Int) :
    (a.setI32 n v).getF32 m = a.getF32 m := by
  unfold setI32
  split <;> rfl

theorem setI32_self (a : TransformAttrs F) (n : String) (v : Int) :
    (n ∈ names .transform .i32 → (a.setI32 n v).getI32 n = v) ∧
    (n ∉ names .transform .i32 → a.setI32 n v = a) := by
  unfold setI32
  split <;> first
    | exact ⟨fun _ => rfl, fun h => absurd (by simp [names]) h⟩
    | exact ⟨fun h => by simp_all [names], fun _ => rfl⟩

theorem getI32_other (a : TransformAttrs F) (n : String) (h : n ∉ names .transform .i32) :
    a.getI32 n = 0 := by
  unfold getI32
  split <;> first | rfl | exact absurd (by simp [names]) h

theorem setI32_exists (a : TransformAttrs F) (n m : String) (v : Int) :
    (a.setI32 n v).attrExists m = a.attrExists m := rfl

theorem setF32_getStr (a : TransformAttrs F) (n m : String) (v : F) :
    (a.setF32 n v).getStr m = a.getStr m := by
  unfold setF32
  split <;> rfl

theorem setF32_getI32 (a : TransformAttrs F) (n m : String) (v : F) :
    (a.setF32 n v).getI32 m = a.getI32 m := by
  unfold setF32
  split <;> rfl

theorem setF32_getF32_ne (a : TransformAttrs F) (n m : String) (v : F) (h : m ≠ n) :
    (a.setF32 n v).getF32 m = a.getF32 m := by
  unfold setF32
  split <;> first
    | rfl
    | (unfold getF32; split <;> first | rfl | exact absurd rfl h)

theorem setF32_self (a : TransformAttrs F) (n : String) (v : F) :
    (n ∈ names .transform .f32 → (a.setF32 n v).getF32 n = v) ∧
    (n ∉ names .transform .f32 → a.setF32 n v = a) := by
  unfold setF32
  split <;> first
    | exact ⟨fun _ => rfl, fun h => absurd (by simp [names]) h⟩
    | exact ⟨fun h => by simp_all [names], fun _ => rfl⟩

theorem getF32_other (a : TransformAttrs F) (n : String) (h : n ∉ names .transform .f32) :
    a.getF32 n = 0 := by
  unfold getF32
  split <;> first | rfl | exact absurd (by simp [names]) h

theorem setF32_exists (a : TransformAttrs F) (n m : String) (v : F) :
    (a.setF32 n v).attrExists m = a.attrExists m := rfl

theorem exists_iff (a : TransformAttrs F) (n : String) :
    a.attrExists n = .exists ↔ ∃ k, n ∈ names .transform k := by
  constructor
  · unfold attrExists
    split <;> intro h <;> first
      | (refine ⟨.i32, ?_⟩; simp [names]; done)
      | (refine ⟨.f32, ?_⟩; simp [names]; done)
      | exact absurd h nofun
  · rintro ⟨k, h⟩
    unfold attrExists
    split <;> first
      | rfl
      | (exfalso; cases k <;> simp_all [names])

end TransformAttrs

namespace MergeImageAttrs

theorem setStr_getStr_ne (a : MergeImageAttrs F) (n m : String) (v : Bytes) (h : m ≠ n) :
    (a.setStr n v).getStr m = a.getStr m := by
  rfl

theorem setStr_getI32 (a : MergeImageAttrs F) (n m : String) (v : Bytes) :
    (a.setStr n v).getI32 m = a.getI32 m := by
  rfl

theorem setStr_getF32 (a : MergeImageAttrs F) (n m : String) (v : Bytes) :
    (a.setStr n v).getF32 m = a.getF32 m := by
  rfl

theorem setStr_self (a : MergeImageAttrs F) (n : String) (v : Bytes) :
    (n ∈ names .mergeImage .str → (a.setStr n v).getStr n = v) ∧
    (n ∉ names .mergeImage .str → a.setStr n v = a) := by
  exact ⟨fun h => by simp [names] at h, fun _ => rfl⟩

theorem getStr_other (a : MergeImageAttrs F) (n : String) (h : n ∉ names .mergeImage .str) :
    a.getStr n = [] := by
  rfl

theorem setStr_exists (a : MergeImageAttrs F) (n m : String) (v : Bytes) :
    (a.setStr n v).attrExists m = a.attrExists m := rfl

theorem setI32_getStr (a : MergeImageAttrs F) (n m : String) (v : Int) :
    (a.setI32 n v).getStr m = a.getStr m := by
  unfold setI32
  split <;> rfl

theorem setI32_getI32_ne (a : MergeImageAttrs F) (n m : String) (v : Int) (h : m ≠ n) :
    (a.setI32 n v).getI32 m = a.getI32 m := by
  unfold setI32
  split <;> first
    | rfl
    | (unfold getI32; split <;> first | rfl | exact absurd rfl h)

theorem setI32_getF32 (a : MergeImageAttrs F) (n m : String) (v : Int) :
    (a.setI32 n v).getF32 m = a.getF32 m := by
  unfold setI32
  split <;> rfl

theorem setI32_self (a : MergeImageAttrs F) (n : String) (v : Int) :
    (n ∈ names .mergeImage .i32 → (a.setI32 n v).getI32 n = v) ∧
    (n ∉ names .mergeImage .i32 → a.setI32 n v = a) := by
  unfold setI32
  split <;> first
    | exact ⟨fun _ => rfl, fun h => absurd (by simp [names]) h⟩
    | exact ⟨fun h => by simp_all [names], fun _ => rfl⟩

theorem getI32_other (a : MergeImageAttrs F) (n : String) (h : n ∉ names .mergeImage .i32) :
    a.getI32 n = 0 := by
  unfold getI32
  split <;> first | rfl | exact absurd (by simp [names]) h

theorem setI32_exists (a : MergeImageAttrs F) (n m : String) (v : Int) :
    (a.setI32 n v).attrExists m = a.attrExists m := rfl

theorem setF32_getStr (a : MergeImageAttrs F) (n m : String) (v : F) :
    (a.setF32 n v).getStr m = a.getStr m := by
  unfold setF32
  split <;> rfl

theorem setF32_getI32 (a : MergeImageAttrs F) (n m : String) (v : F) :
    (a.setF32 n v).getI32 m = a.getI32 m := by
  unfold setF32
  split <;> rfl

theorem setF32_getF32_ne (a : MergeImageAttrs F) (n m : String) (v : F) (h : m ≠ n) :
    (a.setF32 n v).getF32 m = a.getF32 m := by
  unfold setF32
  split <;> first
    | rfl
    | (unfold getF32; split <;> first | rfl | exact absurd rfl h)

theorem setF32_self (a : MergeImageAttrs F) (n : String) (v : F) :
    (n ∈ names .mergeImage .f32 → (a.setF32 n v).getF32 n = v) ∧
    (n ∉ names .mergeImage .f32 → a.setF32 n v = a) := by
  unfold setF32
  split <;> first
    | exact ⟨fun _ => rfl, fun h => absurd (by simp [names]) h⟩
    | exact ⟨fun h => by simp_all [names], fun _ => rfl⟩

theorem getF32_other (a : MergeImageAttrs F) (n : String) (h : n ∉ names .mergeImage .f32) :
    a.getF32 n = 0 := by
  unfold getF32
  split <;> first | rfl | exact absurd (by simp [names]) h

theorem setF32_exists (a : MergeImageAttrs F) (n m : String) (v : F) :
    (a.setF32 n v).attrExists m = a.attrExists m := rfl

theorem exists_iff (a : MergeImageAttrs F) (n : String) :
    a.attrExists n = .exists ↔ ∃ k, n ∈ names .mergeImage k := by
  constructor
  · unfold attrExists
    split <;> intro h <;> first
      | (refine ⟨.i32, ?_⟩; simp [names]; done)
      | (refine ⟨.f32, ?_⟩; simp [names]; done)
      | exact absurd h nofun
  · rintro ⟨k, h⟩
    unfold attrExists
    split <;> first
      | rfl
      | (exfalso; cases k <;> simp_all [names])

end MergeImageAttrs

namespace CropImageAttrs

theorem setStr_getStr_ne (a : CropImageAttrs) (n m : String) (v : Bytes) (h : m ≠ n) :
    (a.setStr n v).getStr m = a.getStr m := by
  rfl

theorem setStr_getI32 (a : CropImageAttrs) (n m : String) (v : Bytes) :
    (a.setStr n v).getI32 m = a.getI32 m := by
  rfl

theorem setStr_getF32 (a : CropImageAttrs) (n m : String) (v : Bytes) :
    (a.setStr n v).getF32 (F := F) m = a.getF32 (F := F) m := by
  rfl

theorem setStr_self (a : CropImageAttrs) (n : String) (v : Bytes) :
    (n ∈ names .cropImage .str → (a.setStr n v).getStr n = v) ∧
    (n ∉ names .cropImage .str → a.setStr n v = a) := by
  exact ⟨fun h => by simp [names] at h, fun _ => rfl⟩

theorem getStr_other (a : CropImageAttrs) (n : String) (h : n ∉ names .cropImage .str) :
    a.getStr n = [] := by
  rfl

theorem setStr_exists (a : CropImageAttrs) (n m : String) (v : Bytes) :
    (a.setStr n v).attrExists m = a.attrExists m := rfl

theorem setI32_getStr (a : CropImageAttrs) (n m : String) (v : Int) :
    (a.setI32 n v).getStr m = a.getStr m := by
  unfold setI32
  split <;> rfl

theorem setI32_getI32_ne (a : CropImageAttrs) (n m : String) (v : Int) (h : m ≠ n) :
    (a.setI32 n v).getI32 m = a.getI32 m := by
  unfold setI32
  split <;> first
    | rfl
    | (unfold getI32; split <;> first | rfl | exact absurd rfl h)

theorem setI32_getF32 (a : CropImageAttrs) (n m : String) (v : Int) :
    (a.setI32 n v).getF32 (F := F) m = a.getF32 (F := F) m := by
  unfold setI32
  split <;> rfl

theorem setI32_self (a : CropImageAttrs) (n : String) (v : Int) :
    (n ∈ names .cropImage .i32 → (a.setI32 n v).getI32 n = v) ∧
    (n ∉ names .cropImage .i32 → a.setI32 n v = a) := by
  unfold setI32
  split <;> first
    | exact ⟨fun _ => rfl, fun h => absurd (by simp [names]) h⟩
    | exact ⟨fun h => by simp_all [names], fun _ => rfl⟩

theorem getI32_other (a : CropImageAttrs) (n : String) (h : n ∉ names .cropImage .i32) :
    a.getI32 n = 0 := by
  unfold getI32
  split <;> first | rfl | exact absurd (by simp [names]) h

theorem setI32_exists (a : CropImageAttrs) (n m : String) (v : Int) :
    (a.setI32 n v).attrExists m = a.attrExists m := rfl

theorem setF32_getStr (a : CropImageAttrs) (n m : String) (v : F) :
    (a.setF32 n v).getStr m = a.getStr m := by
  rfl

theorem setF32_getI32 (a : CropImageAttrs) (n m : String) (v : F) :
    (a.setF32 n v).getI32 m = a.getI32 m := by
  rfl

theorem setF32_getF32_ne (a : CropImageAttrs) (n m : String) (v : F) (h : m ≠ n) :
    (a.setF32 n v).getF32 (F := F) m = a.getF32 (F := F) m := by
  rfl

theorem setF32_self (a : CropImageAttrs) (n : String) (v : F) :
    (n ∈ names .cropImage .f32 → (a.setF32 n v).getF32 (F := F) n = v) ∧
    (n ∉ names .cropImage .f32 → a.setF32 n v = a) := by
  exact ⟨fun h => by simp [names] at h, fun _ => rfl⟩

theorem getF32_other (a : CropImageAttrs) (n : String) (h : n ∉ names .cropImage .f32) :
    a.getF32 (F := F) n = 0 := by
  rfl

theorem setF32_exists (a : CropImageAttrs) (n m : String) (v : F) :
    (a.setF32 n v).attrExists m = a.attrExists m := rfl

theorem exists_iff (a : CropImageAttrs) (n : String) :
    a.attrExists n = .exists ↔ ∃ k, n ∈ names .cropImage k := by
  constructor
  · unfold attrExists
    split <;> intro h <;> first
      | (refine ⟨.i32, ?_⟩; simp [names]; done)
      | exact absurd h nofun
  · rintro ⟨k, h⟩
    unfold attrExists
    split <;> first
      | rfl
      | (exfalso; cases k <;> simp_all [names])

end CropImageAttrs

namespace ViewerAttrs

theorem setStr_getStr_ne (a : ViewerAttrs) (n m : String) (v : Bytes) (h : m ≠ n) :
    (a.setStr n v).getStr m = a.getStr m := by
  unfold setStr
  split <;> first
    | rfl
    | (unfold getStr; split <;> first | rfl | exact absurd rfl h)

theorem setStr_getI32 (a : ViewerAttrs) (n m : String) (v : Bytes) :
    (a.setStr n v).getI32 m = a.getI32 m := by
  unfold setStr
  split <;> rfl

theorem setStr_getF32 (a : ViewerAttrs) (n m : String) (v : Bytes) :
    (a.setStr n v).getF32 (F := F) m = a.getF32 (F := F) m := by
  unfold setStr
  split <;> rfl

theorem setStr_self (a : ViewerAttrs) (n : String) (v : Bytes) :
    (n ∈ names .viewer .str → (a.setStr n v).getStr n = v) ∧
    (n ∉ names .viewer .str → a.setStr n v = a) := by
  unfold setStr
  split <;> first
    | exact ⟨fun _ => rfl, fun h => absurd (by simp [names]) h⟩
    | exact ⟨fun h => by simp_all [names], fun _ => rfl⟩

theorem getStr_other (a : ViewerAttrs) (n : String) (h : n ∉ names .viewer .str) :
    a.getStr n = [] := by
  unfold getStr
  split <;> first | rfl | exact absurd (by simp [names]) h

theorem setStr_exists (a : ViewerAttrs) (n m : String) (v : Bytes) :
    (a.setStr n v).attrExists m = a.attrExists m := rfl

theorem setI32_getStr (a : ViewerAttrs) (n m : String) (v : Int) :
    (a.setI32 n v).getStr m = a.getStr m := by
  unfold setI32
  split <;> rfl

theorem setI32_getI32_ne (a : ViewerAttrs) (n m : String) (v : Int) (h : m ≠ n) :
    (a.setI32 n v).getI32 m = a.getI32 m := by
  unfold setI32
  split <;> first
    | rfl
    | (unfold getI32; split <;> first | rfl | exact absurd rfl h)

theorem setI32_getF32 (a : ViewerAttrs) (n m : String) (v : Int) :
    (a.setI32 n v).getF32 (F := F) m = a.getF32 (F := F) m := by
  unfold setI32
  split <;> rfl

theorem setI32_self (a : ViewerAttrs) (n : String) (v : Int) :
    (n ∈ names .viewer .i32 → (a.setI32 n v).getI32 n = v) ∧
    (n ∉ names .viewer .i32 → a.setI32 n v = a) := by
  unfold setI32
  split <;> first
    | exact ⟨fun _ => rfl, fun h => absurd (by simp [names]) h⟩
    | exact ⟨fun h => by simp_all [names], fun _ => rfl⟩

theorem getI32_other (a : ViewerAttrs) (n : String) (h : n ∉ names .viewer .i32) :
    a.getI32 n = 0 := by
  unfold getI32
  split <;> first | rfl | exact absurd (by simp [names]) h

theorem setI32_exists (a : ViewerAttrs) (n m : String) (v : Int) :
    (a.setI32 n v).attrExists m = a.attrExists m := rfl

theorem setF32_getStr (a : ViewerAttrs) (n m : String) (v : F) :
    (a.setF32 n v).getStr m = a.getStr m := by
  rfl

theorem setF32_getI32 (a : ViewerAttrs) (n m : String) (v : F) :
    (a.setF32 n v).getI32 m = a.getI32 m := by
  rfl

theorem setF32_getF32_ne (a : ViewerAttrs) (n m : String) (v : F) (h : m ≠ n) :
    (a.setF32 n v).getF32 (F := F) m = a.getF32 (F := F) m := by
  rfl

theorem setF32_self (a : ViewerAttrs) (n : String) (v : F) :
    (n ∈ names .viewer .f32 → (a.setF32 n v).getF32 (F := F) n = v) ∧
    (n ∉ names .viewer .f32 → a.setF32 n v = a) := by
  exact ⟨fun h => by simp [names] at h, fun _ => rfl⟩

theorem getF32_other (a : ViewerAttrs) (n : String) (h : n ∉ names .viewer .f32) :
    a.getF32 (F := F) n = 0 := by
  rfl

theorem setF32_exists (a : ViewerAttrs) (n m : String) (v : F) :
    (a.setF32 n v).attrExists m = a.attrExists m := rfl

theorem exists_iff (a : ViewerAttrs) (n : String) :
    a.attrExists n = .exists ↔ ∃ k, n ∈ names .viewer k := by
  constructor
  · unfold attrExists
    split <;> intro h <;> first
      | (refine ⟨.str, ?_⟩; simp [names]; done)
      | (refine ⟨.i32, ?_⟩; simp [names]; done)
      | exact absurd h nofun
  · rintro ⟨k, h⟩
    unfold attrExists
    split <;> first
      | rfl
      | (exfalso; cases k <;> simp_all [names])

end ViewerAttrs

namespace ResampleImageAttrs

theorem setStr_getStr_ne (a : ResampleImageAttrs) (n m : String) (v : Bytes) (h : m ≠ n) :
    (a.setStr n v).getStr m = a.getStr m := by
  rfl

theorem setStr_getI32 (a : ResampleImageAttrs) (n m : String) (v : Bytes) :
    (a.setStr n v).getI32 m = a.getI32 m := by
  rfl

theorem setStr_getF32 (a : ResampleImageAttrs) (n m : String) (v : Bytes) :
    (a.setStr n v).getF32 (F := F) m = a.getF32 (F := F) m := by
  rfl

theorem setStr_self (a : ResampleImageAttrs) (n : String) (v : Bytes) :
    (n ∈ names .resampleImage .str → (a.setStr n v).getStr n = v) ∧
    (n ∉ names .resampleImage .str → a.setStr n v = a) := by
  exact ⟨fun h => by simp [names] at h, fun _ => rfl⟩

theorem getStr_other (a : ResampleImageAttrs) (n : String) (h : n ∉ names .resampleImage .str) :
    a.getStr n = [] := by
  rfl

theorem setStr_exists (a : ResampleImageAttrs) (n m : String) (v : Bytes) :
    (a.setStr n v).attrExists m = a.attrExists m := rfl

theorem setI32_getStr (a : ResampleImageAttrs) (n m : String) (v : Int) :
    (a.setI32 n v).getStr m = a.getStr m := by
  unfold setI32
  split <;> rfl

theorem setI32_getI32_ne (a : ResampleImageAttrs) (n m : String) (v : Int) (h : m ≠ n) :
    (a.setI32 n v).getI32 m = a.getI32 m := by
  unfold setI32
  split <;> first
    | rfl
    | (unfold getI32; split <;> first | rfl | exact absurd rfl h)

theorem setI32_getF32 (a : ResampleImageAttrs) (n m : String) (v : Int) :
    (a.setI32 n v).getF32 (F := F) m = a.getF32 (F := F) m := by
  unfold setI32
  split <;> rfl

theorem setI32_self (a : ResampleImageAttrs) (n : String) (v : Int) :
    (n ∈ names .resampleImage .i32 → (a.setI32 n v).getI32 n = v) ∧
    (n ∉ names .resampleImage .i32 → a.setI32 n v = a) := by
  unfold setI32
  split <;> first
    | exact ⟨fun _ => rfl, fun h => absurd (by simp [names]) h⟩
    | exact ⟨fun h => by simp_all [names], fun _ => rfl⟩

theorem getI32_other (a : ResampleImageAttrs) (n : String) (h : n ∉ names .resampleImage .i32) :
    a.getI32 n = 0 := by
  unfold getI32
  split <;> first | rfl | exact absurd (by simp [names]) h

theorem setI32_exists (a : ResampleImageAttrs) (n m : String) (v : Int) :
    (a.setI32 n v).attrExists m = a.attrExists m := rfl

theorem setF32_getStr (a : ResampleImageAttrs) (n m : String) (v : F) :
    (a.setF32 n v).getStr m = a.getStr m := by
  rfl

theorem setF32_getI32 (a : ResampleImageAttrs) (n m : String) (v : F) :
    (a.setF32 n v).getI32 m = a.getI32 m := by
  rfl

theorem setF32_getF32_ne (a : ResampleImageAttrs) (n m : String) (v : F) (h : m ≠ n) :
    (a.setF32 n v).getF32 (F := F) m = a.getF32 (F := F) m := by
  rfl

theorem setF32_self (a : ResampleImageAttrs) (n : String) (v : F) :
    (n ∈ names .resampleImage .f32 → (a.setF32 n v).getF32 (F := F) n = v) ∧
    (n ∉ names .resampleImage .f32 → a.setF32 n v = a) := by
  exact ⟨fun h => by simp [names] at h, fun _ => rfl⟩

theorem getF32_other (a : ResampleImageAttrs) (n : String) (h : n ∉ names .resampleImage .f32) :
    a.getF32 (F := F) n = 0 := by
  rfl

theorem setF32_exists (a : ResampleImageAttrs) (n m : String) (v : F) :
    (a.setF32 n v).attrExists m = a.attrExists m := rfl

theorem exists_iff (a : ResampleImageAttrs) (n : String) :
    a.attrExists n = .exists ↔ ∃ k, n ∈ names .resampleImage k := by
  constructor
  · unfold attrExists
    split <;> intro h <;> first
      | (refine ⟨.i32, ?_⟩; simp [names]; done)
      | exact absurd h nofun
  · rintro ⟨k, h⟩
    unfold attrExists
    split <;> first
      | rfl
      | (exfalso; cases k <;> simp_all [names])

end ResampleImageAttrs

namespace NodeAttrs

theorem setStr_getStr_ne (b : NodeAttrs F) (n m : String) (v : Bytes) (h : m ≠ n) :
    (b.setStr n v).getStr m = b.getStr m := by
  cases b with
  | null a => exact NullAttrs.setStr_getStr_ne a n m v h
  | readImage a => exact ReadImageAttrs.setStr_getStr_ne a n m v h
  | writeImage a => exact WriteImageAttrs.setStr_getStr_ne a n m v h
  | grade a => exact GradeAttrs.setStr_getStr_ne a n m v h
  | lensDistort a => exact LensDistortAttrs.setStr_getStr_ne a n m v h
  | transform a => exact TransformAttrs.setStr_getStr_ne a n m v h
  | mergeImage a => exact MergeImageAttrs.setStr_getStr_ne a n m v h
  | cropImage a => exact CropImageAttrs.setStr_getStr_ne a n m v h
  | viewer a => exact ViewerAttrs.setStr_getStr_ne a n m v h
  | resampleImage a => exact ResampleImageAttrs.setStr_getStr_ne a n m v h

theorem setStr_getI32 (b : NodeAttrs F) (n m : String) (v : Bytes) :
    (b.setStr n v).getI32 m = b.getI32 m := by
  cases b with
  | null a => exact NullAttrs.setStr_getI32 a n m v
  | readImage a => exact ReadImageAttrs.setStr_getI32 a n m v
  | writeImage a => exact WriteImageAttrs.setStr_getI32 a n m v
  | grade a => exact GradeAttrs.setStr_getI32 a n m v
  | lensDistort a => exact LensDistortAttrs.setStr_getI32 a n m v
  | transform a => exact TransformAttrs.setStr_getI32 a n m v
  | mergeImage a => exact MergeImageAttrs.setStr_getI32 a n m v
  | cropImage a => exact CropImageAttrs.setStr_getI32 a n m v
  | viewer a => exact ViewerAttrs.setStr_getI32 a n m v
  | resampleImage a => exact ResampleImageAttrs.setStr_getI32 a n m v

theorem setStr_getF32 (b : NodeAttrs F) (n m : String) (v : Bytes) :
    (b.setStr n v).getF32 m = b.getF32 m := by
  cases b with
  | null a => exact NullAttrs.setStr_getF32 a n m v
  | readImage a => exact ReadImageAttrs.setStr_getF32 a n m v
  | writeImage a => exact WriteImageAttrs.setStr_getF32 a n m v
  | grade a => exact GradeAttrs.setStr_getF32 a n m v
  | lensDistort a => exact LensDistortAttrs.setStr_getF32 a n m v
  | transform a => exact TransformAttrs.setStr_getF32 a n m v
  | mergeImage a => exact MergeImageAttrs.setStr_getF32 a n m v
  | cropImage a => exact CropImageAttrs.setStr_getF32 a n m v
  | viewer a => exact ViewerAttrs.setStr_getF32 a n m v
  | resampleImage a => exact ResampleImageAttrs.setStr_getF32 a n m v

theorem setStr_self (b : NodeAttrs F) (n : String) (v : Bytes) :
    (n ∈ names b.nodeType .str → (b.setStr n v).getStr n = v) ∧
    (n ∉ names b.nodeType .str → b.setStr n v = b) := by
  cases b with
  | null a => exact ⟨(NullAttrs.setStr_self a n v).1,
      fun h => congrArg NodeAttrs.null ((NullAttrs.setStr_self a n v).2 h)⟩
  | readImage a => exact ⟨(ReadImageAttrs.setStr_self a n v).1,
      fun h => congrArg NodeAttrs.readImage ((ReadImageAttrs.setStr_self a n v).2 h)⟩
  | writeImage a => exact ⟨(WriteImageAttrs.setStr_self a n v).1,
      fun h => congrArg NodeAttrs.writeImage ((WriteImageAttrs.setStr_self a n v).2 h)⟩
  | grade a => exact ⟨(GradeAttrs.setStr_self a n v).1,
      fun h => congrArg NodeAttrs.grade ((GradeAttrs.setStr_self a n v).2 h)⟩
  | lensDistort a => exact ⟨(LensDistortAttrs.setStr_self a n v).1,
      fun h => congrArg NodeAttrs.lensDistort ((LensDistortAttrs.setStr_self a n v).2 h)⟩
  | transform a => exact ⟨(TransformAttrs.setStr_self a n v).1,
      fun h => congrArg NodeAttrs.transform ((TransformAttrs.setStr_self a n v).2 h)⟩
  | mergeImage a => exact ⟨(MergeImageAttrs.setStr_self a n v).1,
      fun h => congrArg NodeAttrs.mergeImage ((MergeImageAttrs.setStr_self a n v).2 h)⟩
  | cropImage a => exact ⟨(CropImageAttrs.setStr_self a n v).1,
      fun h => congrArg NodeAttrs.cropImage ((CropImageAttrs.setStr_self a n v).2 h)⟩
  | viewer a => exact ⟨(ViewerAttrs.setStr_self a n v).1,
      fun h => congrArg NodeAttrs.viewer ((ViewerAttrs.setStr_self a n v).2 h)⟩
  | resampleImage a => exact ⟨(ResampleImageAttrs.setStr_self a n v).1,
      fun h => congrArg NodeAttrs.resampleImage ((ResampleImageAttrs.setStr_self a n v).2 h)⟩

theorem getStr_other (b : NodeAttrs F) (n : String) (h : n ∉ names b.nodeType .str) :
    b.getStr n = [] := by
  cases b with
  | null a => exact NullAttrs.getStr_other a n h
  | readImage a => exact ReadImageAttrs.getStr_other a n h
  | writeImage a => exact WriteImageAttrs.getStr_other a n h
  | grade a => exact GradeAttrs.getStr_other a n h
  | lensDistort a => exact LensDistortAttrs.getStr_other a n h
  | transform a => exact TransformAttrs.getStr_other a n h
  | mergeImage a => exact MergeImageAttrs.getStr_other a n h
  | cropImage a => exact CropImageAttrs.getStr_other a n h
  | viewer a => exact ViewerAttrs.getStr_other a n h
  | resampleImage a => exact ResampleImageAttrs.getStr_other a n h

theorem setStr_exists (b : NodeAttrs F) (n m : String) (v : Bytes) :
    (b.setStr n v).attrExists m = b.attrExists m := by
  cases b <;> rfl

theorem setStr_type (b : NodeAttrs F) (n : String) (v : Bytes) :
    (b.setStr n v).nodeType = b.nodeType := by
  cases b <;> rfl

theorem setI32_getStr (b : NodeAttrs F) (n m : String) (v : Int) :
    (b.setI32 n v).getStr m = b.getStr m := by
  cases b with
  | null a => exact NullAttrs.setI32_getStr a n m v
  | readImage a => exact ReadImageAttrs.setI32_getStr a n m v
  | writeImage a => exact WriteImageAttrs.setI32_getStr a n m v
  | grade a => exact GradeAttrs.setI32_getStr a n m v
  | lensDistort a => exact LensDistortAttrs.setI32_getStr a n m v
  | transform a => exact TransformAttrs.setI32_getStr a n m v
  | mergeImage a => exact MergeImageAttrs.setI32_getStr a n m v
  | cropImage a => exact CropImageAttrs.setI32_getStr a n m v
  | viewer a => exact ViewerAttrs.setI32_getStr a n m v
  | resampleImage a => exact ResampleImageAttrs.setI32_getStr a n m v

theorem setI32_getI32_ne (b : NodeAttrs F) (n m : String) (v : Int) (h : m ≠ n) :
    (b.setI32 n v).getI32 m = b.getI32 m := by
  cases b with
  | null a => exact NullAttrs.setI32_getI32_ne a n m v h
  | readImage a => exact ReadImageAttrs.setI32_getI32_ne a n m v h
  | writeImage a => exact WriteImageAttrs.setI32_getI32_ne a n m v h
  | grade a => exact GradeAttrs.setI32_getI32_ne a n m v h
  | lensDistort a => exact LensDistortAttrs.setI32_getI32_ne a n m v h
  | transform a => exact TransformAttrs.setI32_getI32_ne a n m v h
  | mergeImage a => exact MergeImageAttrs.setI32_getI32_ne a n m v h
  | cropImage a => exact CropImageAttrs.setI32_getI32_ne a n m v h
  | viewer a => exact ViewerAttrs.setI32_getI32_ne a n m v h
  | resampleImage a => exact ResampleImageAttrs.setI32_getI32_ne a n m v h

theorem setI32_getF32 (b : NodeAttrs F) (n m : String) (v : Int) :
    (b.setI32 n v).getF32 m = b.getF32 m := by
  cases b with
  | null a => exact NullAttrs.setI32_getF32 a n m v
  | readImage a => exact ReadImageAttrs.setI32_getF32 a n m v
  | writeImage a => exact WriteImageAttrs.setI32_getF32 a n m v
  | grade a => exact GradeAttrs.setI32_getF32 a n m v
  | lensDistort a => exact LensDistortAttrs.setI32_getF32 a n m v
  | transform a => exact TransformAttrs.setI32_getF32 a n m v
  | mergeImage a => exact MergeImageAttrs.setI32_getF32 a n m v
  | cropImage a => exact CropImageAttrs.setI32_getF32 a n m v
  | viewer a => exact ViewerAttrs.setI32_getF32 a n m v
  | resampleImage a => exact ResampleImageAttrs.setI32_getF32 a n m v

theorem setI32_self (b : NodeAttrs F) (n : String) (v : Int) :
    (n ∈ names b.nodeType .i32 → (b.setI32 n v).getI32 n = v) ∧
    (n ∉ names b.nodeType .i32 → b.setI32 n v = b) := by
  cases b with
  | null a => exact ⟨(NullAttrs.setI32_self a n v).1,
      fun h => congrArg NodeAttrs.null ((NullAttrs.setI32_self a n v).2 h)⟩
  | readImage a => exact ⟨(ReadImageAttrs.setI32_self a n v).1,
      fun h => congrArg NodeAttrs.readImage ((ReadImageAttrs.setI32_self a n v).2 h)⟩
  | writeImage a => exact ⟨(WriteImageAttrs.setI32_self a n v).1,
      fun h => congrArg NodeAttrs.writeImage ((WriteImageAttrs.setI32_self a n v).2 h)⟩
  | grade a => exact ⟨(GradeAttrs.setI32_self a n v).1,
      fun h => congrArg NodeAttrs.grade ((GradeAttrs.setI32_self a n v).2 h)⟩
  | lensDistort a => exact ⟨(LensDistortAttrs.setI32_self a n v).1,
      fun h => congrArg NodeAttrs.lensDistort ((LensDistortAttrs.setI32_self a n v).2 h)⟩
  | transform a => exact ⟨(TransformAttrs.setI32_self a n v).1,
      fun h => congrArg NodeAttrs.transform ((TransformAttrs.setI32_self a n v).2 h)⟩
  | mergeImage a => exact ⟨(MergeImageAttrs.setI32_self a n v).1,
      fun h => congrArg NodeAttrs.mergeImage ((MergeImageAttrs.setI32_self a n v).2 h)⟩
  | cropImage a => exact ⟨(CropImageAttrs.setI32_self a n v).1,
      fun h => congrArg NodeAttrs.cropImage ((CropImageAttrs.setI32_self a n v).2 h)⟩
  | viewer a => exact ⟨(ViewerAttrs.setI32_self a n v).1,
      fun h => congrArg NodeAttrs.viewer ((ViewerAttrs.setI32_self a n v).2 h)⟩
  | resampleImage a => exact ⟨(ResampleImageAttrs.setI32_self a n v).1,
      fun h => congrArg NodeAttrs.resampleImage ((ResampleImageAttrs.setI32_self a n v).2 h)⟩

theorem getI32_other (b : NodeAttrs F) (n : String) (h : n ∉ names b.nodeType .i32) :
    b.getI32 n = 0 := by
  cases b with
  | null a => exact NullAttrs.getI32_other a n h
  | readImage a => exact ReadImageAttrs.getI32_other a n h
  | writeImage a => exact WriteImageAttrs.getI32_other a n h
  | grade a => exact GradeAttrs.getI32_other a n h
  | lensDistort a => exact LensDistortAttrs.getI32_other a n h
  | transform a => exact TransformAttrs.getI32_other a n h
  | mergeImage a => exact MergeImageAttrs.getI32_other a n h
  | cropImage a => exact CropImageAttrs.getI32_other a n h
  | viewer a => exact ViewerAttrs.getI32_other a n h
  | resampleImage a => exact ResampleImageAttrs.getI32_other a n h

theorem setI32_exists (b : NodeAttrs F) (n m : String) (v : Int) :
    (b.setI32 n v).attrExists m = b.attrExists m := by
  cases b <;> rfl

theorem setI32_type (b : NodeAttrs F) (n : String) (v : Int) :
    (b.setI32 n v).nodeType = b.nodeType := by
  cases b <;> rfl

theorem setF32_getStr (b : NodeAttrs F) (n m : String) (v : F) :
    (b.setF32 n v).getStr m = b.getStr m := by
  cases b with
  | null a => exact NullAttrs.setF32_getStr a n m v
  | readImage a => exact ReadImageAttrs.setF32_getStr a n m v
  | writeImage a => exact WriteImageAttrs.setF32_getStr a n m v
  | grade a => exact GradeAttrs.setF32_getStr a n m v
  | lensDistort a => exact LensDistortAttrs.setF32_getStr a n m v
  | transform a => exact TransformAttrs.setF32_getStr a n m v
  | mergeImage a => exact MergeImageAttrs.setF32_getStr a n m v
  | cropImage a => exact CropImageAttrs.setF32_getStr a n m v
  | viewer a => exact ViewerAttrs.setF32_getStr a n m v
  | resampleImage a => exact ResampleImageAttrs.setF32_getStr a n m v

theorem setF32_getI32 (b : NodeAttrs F) (n m : String) (v : F) :
    (b.setF32 n v).getI32 m = b.getI32 m := by
  cases b with
  | null a => exact NullAttrs.setF32_getI32 a n m v
  | readImage a => exact ReadImageAttrs.setF32_getI32 a n m v
  | writeImage a => exact WriteImageAttrs.setF32_getI32 a n m v
  | grade a => exact GradeAttrs.setF32_getI32 a n m v
  | lensDistort a => exact LensDistortAttrs.setF32_getI32 a n m v
  | transform a => exact TransformAttrs.setF32_getI32 a n m v
  | mergeImage a => exact MergeImageAttrs.setF32_getI32 a n m v
  | cropImage a => exact CropImageAttrs.setF32_getI32 a n m v
  | viewer a => exact ViewerAttrs.setF32_getI32 a n m v
  | resampleImage a => exact ResampleImageAttrs.setF32_getI32 a n m v

theorem setF32_getF32_ne (b : NodeAttrs F) (n m : String) (v : F) (h : m ≠ n) :
    (b.setF32 n v).getF32 m = b.getF32 m := by
  cases b with
  | null a => exact NullAttrs.setF32_getF32_ne a n m v h
  | readImage a => exact ReadImageAttrs.setF32_getF32_ne a n m v h
  | writeImage a => exact WriteImageAttrs.setF32_getF32_ne a n m v h
  | grade a => exact GradeAttrs.setF32_getF32_ne a n m v h
  | lensDistort a => exact LensDistortAttrs.setF32_getF32_ne a n m v h
  | transform a => exact TransformAttrs.setF32_getF32_ne a n m v h
  | mergeImage a => exact MergeImageAttrs.setF32_getF32_ne a n m v h
  | cropImage a => exact CropImageAttrs.setF32_getF32_ne a n m v h
  | viewer a => exact ViewerAttrs.setF32_getF32_ne a n m v h
  | resampleImage a => exact ResampleImageAttrs.setF32_getF32_ne a n m v h

theorem setF32_self (b : NodeAttrs F) (n : String) (v : F) :
    (n ∈ names b.nodeType .f32 → (b.setF32 n v).getF32 n = v) ∧
    (n ∉ names b.nodeType .f32 → b.setF32 n v = b) := by
  cases b with
  | null a => exact ⟨(NullAttrs.setF32_self a n v).1,
      fun h => congrArg NodeAttrs.null ((NullAttrs.setF32_self a n v).2 h)⟩
  | readImage a => exact ⟨(ReadImageAttrs.setF32_self a n v).1,
      fun h => congrArg NodeAttrs.readImage ((ReadImageAttrs.setF32_self a n v).2 h)⟩
  | writeImage a => exact ⟨(WriteImageAttrs.setF32_self a n v).1,
      fun h => congrArg NodeAttrs.writeImage ((WriteImageAttrs.setF32_self a n v).2 h)⟩
  | grade a => exact ⟨(GradeAttrs.setF32_self a n v).1,
      fun h => congrArg NodeAttrs.grade ((GradeAttrs.setF32_self a n v).2 h)⟩
  | lensDistort a => exact ⟨(LensDistortAttrs.setF32_self a n v).1,
      fun h => congrArg NodeAttrs.lensDistort ((LensDistortAttrs.setF32_self a n v).2 h)⟩
  | transform a => exact ⟨(TransformAttrs.setF32_self a n v).1,
      fun h => congrArg NodeAttrs.transform ((TransformAttrs.setF32_self a n v).2 h)⟩
  | mergeImage a => exact ⟨(MergeImageAttrs.setF32_self a n v).1,
      fun h => congrArg NodeAttrs.mergeImage ((MergeImageAttrs.setF32_self a n v).2 h)⟩
  | cropImage a => exact ⟨(CropImageAttrs.setF32_self a n v).1,
      fun h => congrArg NodeAttrs.cropImage ((CropImageAttrs.setF32_self a n v).2 h)⟩
  | viewer a => exact ⟨(ViewerAttrs.setF32_self a n v).1,
      fun h => congrArg NodeAttrs.viewer ((ViewerAttrs.setF32_self a n v).2 h)⟩
  | resampleImage a => exact ⟨(ResampleImageAttrs.setF32_self a n v).1,
      fun h => congrArg NodeAttrs.resampleImage ((ResampleImageAttrs.setF32_self a n v).2 h)⟩

theorem getF32_other (b : NodeAttrs F) (n : String) (h : n ∉ names b.nodeType .f32) :
    b.getF32 n = 0 := by
  cases b with
  | null a => exact NullAttrs.getF32_other a n h
  | readImage a => exact ReadImageAttrs.getF32_other a n h
  | writeImage a => exact WriteImageAttrs.getF32_other a n h
  | grade a => exact GradeAttrs.getF32_other a n h
  | lensDistort a => exact LensDistortAttrs.getF32_other a n h
  | transform a => exact TransformAttrs.getF32_other a n h
  | mergeImage a => exact MergeImageAttrs.getF32_other a n h
  | cropImage a => exact CropImageAttrs.getF32_other a n h
  | viewer a => exact ViewerAttrs.getF32_other a n h
  | resampleImage a => exact ResampleImageAttrs.getF32_other a n h

theorem setF32_exists (b : NodeAttrs F) (n m : String) (v : F) :
    (b.setF32 n v).attrExists m = b.attrExists m := by
  cases b <;> rfl

theorem setF32_type (b : NodeAttrs F) (n : String) (v : F) :
    (b.setF32 n v).nodeType = b.nodeType := by
  cases b <;> rfl

theorem exists_iff (b : NodeAttrs F) (n : String) :
    b.attrExists n = .exists ↔ ∃ k, n ∈ names b.nodeType k := by
  cases b with
  | null a => exact NullAttrs.exists_iff a n
  | readImage a => exact ReadImageAttrs.exists_iff a n
  | writeImage a => exact WriteImageAttrs.exists_iff a n
  | grade a => exact GradeAttrs.exists_iff a n
  | lensDistort a => exact LensDistortAttrs.exists_iff a n
  | transform a => exact TransformAttrs.exists_iff a n
  | mergeImage a => exact MergeImageAttrs.exists_iff a n
  | cropImage a => exact CropImageAttrs.exists_iff a n
  | viewer a => exact ViewerAttrs.exists_iff a n
  | resampleImage a => exact ResampleImageAttrs.exists_iff a n

end NodeAttrs

end OCG
