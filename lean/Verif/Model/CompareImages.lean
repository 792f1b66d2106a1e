/-
metcalcpy/compare_images.py: the class CompareImages.
-/
import Verif.Model.Base

namespace Metcalcpy

/-- What cv2, skimage and imutils compute; `I` is the type of images. -/
structure ImageTools (I : Type) where
  /-- `cv2.imread`; None for a file that cannot be read. -/
  read : String → Option I
  /-- `structural_similarity` of the grey images and the image of differences (69-76); it raises for images of different sizes or with
  a side shorter than seven pixels. -/
  similarity : I → I → Except PyErr (ℚ × I)
  /-- 111-112 `cv2.threshold` of the image of differences. -/
  threshold : I → I
  /-- 141-151, 159-169 `findContours` of the threshold image and the boxes drawn on a copy of the image. -/
  boxes : I → I → I

/-- The fields of a CompareImages object. -/
structure Comparison (I : Type) where
  image1 : I
  image2 : I
  mssim : ℚ
  grad : I
  thresh : Option I
  diff1 : Option I
  diff2 : Option I

variable {I : Type}

/-- compare_images.py:51-79 __init__. -/
def Comparison.init (T : ImageTools I) (path1 path2 : String) : Except PyErr (Comparison I) :=
  match T.read path1 with
  | none => .error .keyError
  | some a => match T.read path2 with
    | none => .error .keyError
    | some b => do
      let (m, g) ← T.similarity a b
      return ⟨a, b, m, g, none, none, none⟩

/-- `not x` for None or an image: the truth value of an array of more than one element is a ValueError.  Images have at least seven
times seven pixels (`similarity`). -/
def pyNotImage : Option I → Except PyErr Bool
  | none => .ok true
  | some _ => .error .valueError

/-- compare_images.py:104-112 _init_thresh. -/
def Comparison.initThresh (T : ImageTools I) (s : Comparison I) : Comparison I := { s with thresh := some (T.threshold s.grad) }

/-- The image an attribute holds, None being an error of the library. -/
def imageOf : Option I → Except PyErr I
  | none => .error .typeError
  | some i => .ok i

/-- compare_images.py:135-151 _init_diff_in_image_1. -/
def Comparison.initDiff1 (T : ImageTools I) (s : Comparison I) : Except PyErr (Comparison I) := do
  let s := if s.thresh.isNone then s.initThresh T else s
  let t ← imageOf s.thresh
  return { s with diff1 := some (T.boxes t s.image1) }

/-- compare_images.py:153-169 _init_diff_in_image_2. -/
def Comparison.initDiff2 (T : ImageTools I) (s : Comparison I) : Except PyErr (Comparison I) := do
  let s := if s.thresh.isNone then s.initThresh T else s
  let t ← imageOf s.thresh
  return { s with diff2 := some (T.boxes t s.image2) }

/-- The pairs of methods save_... and show_..., which differ only in what is done with the image. -/
inductive ImageCall where
  | difference
  | thresh
  | inImage1
  | inImage2
  deriving DecidableEq, Repr

/-- compare_images.py:87-102 (difference), 114-133 (threshold), 171-190 (image 1), 192-211 (image 2): the new state and the image saved
or shown. -/
def Comparison.call (T : ImageTools I) (s : Comparison I) : ImageCall → Except PyErr (Comparison I × I)
  | .difference => .ok (s, s.grad)
  | .thresh => do
    let s := if ← pyNotImage s.thresh then s.initThresh T else s
    return (s, ← imageOf s.thresh)
  | .inImage1 => do
    let s ← if s.diff1.isNone then s.initDiff1 T else .ok s
    return (s, ← imageOf s.diff1)
  | .inImage2 => do
    let s ← if ← pyNotImage s.diff2 then s.initDiff2 T else .ok s
    return (s, ← imageOf s.diff2)

/-- A sequence of calls on one object: the images in order, or the first error. -/
def Comparison.calls (T : ImageTools I) : Comparison I → List ImageCall → Except PyErr (List I)
  | _, [] => .ok []
  | s, c :: cs => do
    let (s, i) ← s.call T c
    return i :: (← s.calls T cs)

/-- compare_images.py:214-231: the script: the images shown, none for equal images. -/
def compareScript (T : ImageTools I) (path1 path2 : String) : Except PyErr (List I) := do
  let s ← Comparison.init T path1 path2
  if s.mssim = 1 then .ok [] else s.calls T [.difference, .thresh, .inImage1, .inImage2]

end Metcalcpy
