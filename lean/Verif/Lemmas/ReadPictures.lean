import Verif.Lemmas.ReadParaProperty

/-!
# Pictures written and read
-/

namespace Docx

open Docx.Xml Docx.Spec

variable {x : ReadEnv} {σ : Type}

/-! ## What comes back -/

/-- A number written in decimal and read as a `f64` cast to `i32`. -/
def again32 (i : Int) : Int := toI32 (roundInt 53 i)

/-- An offset read back; an alignment is not understood. -/
def DrawingPosition.reread : DrawingPosition → DrawingPosition
  | .offset i => .offset (again32 (asU32 i))
  | .align _ => .offset 0

/-- A `u32` read back. -/
def againSize (n : Nat) : Nat := (u32FromStr (dec n)).getD 0

/-- What a vertical position is relative to, read back: one of the eight is not understood. -/
def RelativeFromVType.reread (t : RelativeFromVType) : RelativeFromVType := if t = .outsizeMargin then .margin else t

/-- A picture read back. -/
def Pic.reread (p : Pic) : Pic :=
  match p.positionType with
  | .inline =>
    { id := seen p.id, image := [], size := (againSize p.size.1, againSize p.size.2), layoutInCell := true, relativeHeight := 0,
      allowOverlap := true, distT := again32 p.distT, distB := again32 p.distB, distL := again32 p.distL,
      distR := (parseSigned 32 (decInt p.distR)).getD 0 }
  | .anchor =>
    { id := seen p.id, image := [], size := (againSize p.size.1, againSize p.size.2), positionType := .anchor, simplePos := false,
      simplePosX := again32 p.simplePosX, simplePosY := again32 p.simplePosY, layoutInCell := p.layoutInCell,
      relativeHeight := toU32 (roundInt 53 p.relativeHeight), allowOverlap := p.simplePos,
      positionH := p.positionH.reread, positionV := p.positionV.reread, relativeFromH := p.relativeFromH,
      relativeFromV := p.relativeFromV.reread, distT := again32 p.distT, distB := again32 p.distB, distL := again32 p.distL,
      distR := again32 p.distR }

/-! ## The loop over `pic:pic` -/

/-- An element that the loop over a picture passes by, with what is in it. -/
theorem pic_wrap {n : Str} {as : List (Str × Str)} {f : List Node} {p p' : Pic}
    (h : ∀ q : Str, q ∈ [c!"blip", c!"off", c!"ext", c!"pic"] → (splitQName n).loc ≠ q) (hf : TakesF x (fun _ => picLoop x) p f p') :
    TakesF x (fun _ => picLoop x) p [.elem n as f] p' := by
  have h1 := h c!"blip" (by simp)
  have h2 := h c!"off" (by simp)
  have h3 := h c!"ext" (by simp)
  have h4 := h c!"pic" (by simp)
  refine TakesF.wrap (fun d es hd => ?_) hf (fun d => ?_)
  · simp only [picLoop, if_neg h1, if_neg h2, if_neg h3]
  · simp only [picLoop, if_neg h4]

theorem pic_skip {n : Str} {as : List (Str × Str)} {p : Pic}
    (h : ∀ q : Str, q ∈ [c!"blip", c!"off", c!"ext", c!"pic"] → (splitQName n).loc ≠ q) :
    TakesF x (fun _ => picLoop x) p (leafN n as) p := pic_wrap h (.nil _)

theorem pic_blip {i : Str} {p : Pic} (h : p.id = []) :
    TakesF x (fun _ => picLoop x) p (leafN c!"a:blip" [(c!"r:embed", i)]) { p with id := seen i } := by
  refine TakesF.leaf' (fun d es hd => ?_) (fun d => ?_)
  · by_cases hi : (decodeAttr i).isSome
    · simp [-String.reduceToList, String.toList_inj, picLoop, expectAttrs_cons hi, attrNamed_cons]
    · have e : decodeAttr i = none := by simpa using hi
      obtain ⟨id⟩ := p
      cases h
      simp [-String.reduceToList, String.toList_inj, picLoop, expectAttrs, e, attrNamed_nil, seen]
  · simp [-String.reduceToList, String.toList_inj, picLoop]

theorem attrI32_decInt {as : Attrs} {n : Str} {i d : Int} (h : attrNamed as n = some (decInt i)) : attrI32 x as n d = again32 i := by
  simp [attrI32, h, parseFloat_decInt, again32]

/-- Names without a prefix. -/
theorem split_bare : ∀ n ∈ [c!"x", c!"y", c!"cx", c!"cy", c!"distT", c!"distB", c!"distL", c!"distR", c!"simplePos", c!"allowOverlap",
    c!"behindDoc", c!"locked", c!"layoutInCell", c!"relativeHeight", c!"relativeFrom"], splitQName n = ⟨none, n⟩ := by decide +kernel

theorem pic_off {p : Pic} : TakesF x (fun _ => picLoop x) p (leafN c!"a:off" [(c!"x", c!"0"), (c!"y", c!"0")])
    { p with positionH := .offset 0, positionV := .offset 0 } := by
  have h0 : decodeAttr c!"0" = some c!"0" := by decide +kernel
  have h1 : parseFloat x c!"0" = some 0 := parseFloat_dec x 0
  have h2 : toI32 0 = 0 := by decide
  have sx := split_bare c!"x" (by simp)
  have sy := split_bare c!"y" (by simp)
  refine TakesF.leaf' (fun d es hd => ?_) (fun d => ?_)
  · simp [-String.reduceToList, String.toList_inj, picLoop, expectAttrs_lit _ _ h0, expectAttrs_nil, attrNamed_cons, attrI32, h1, h2, sx, sy]
  · simp [-String.reduceToList, String.toList_inj, picLoop]

theorem pic_ext {p : Pic} {w h : Nat} : TakesF x (fun _ => picLoop x) p (leafN c!"a:ext" [(c!"cx", dec w), (c!"cy", dec h)])
    { p with size := (againSize w, againSize h) } := by
  have sx := split_bare c!"cx" (by simp)
  have sy := split_bare c!"cy" (by simp)
  refine TakesF.leaf' (fun d es hd => ?_) (fun d => ?_)
  · simp [-String.reduceToList, String.toList_inj, picLoop, expectAttrs_dec, expectAttrs_nil, attrNamed_cons, againSize, sx, sy]
  · simp [-String.reduceToList, String.toList_inj, picLoop]

/-- The names of the elements of a picture that carry nothing. -/
macro "no_pic" : tactic => `(tactic|
  (intro q hq
   simp only [List.mem_cons, List.not_mem_nil, or_false] at hq
   rcases hq with h | h | h | h <;> subst h <;> simp [-String.reduceToList, String.toList_inj]))

/-- The inside of `pic:pic`. -/
def Pic.inner (p : Pic) : List Node :=
    [.elem c!"pic:nvPicPr" []
      (leafN c!"pic:cNvPr" [(c!"id", c!"0"), (c!"name", c!"")]
      ++ [.elem c!"pic:cNvPicPr" []
          (leafN c!"a:picLocks" [(c!"noChangeAspect", c!"1"), (c!"noChangeArrowheads", c!"1")])]),
     .elem c!"pic:blipFill" []
      (leafN c!"a:blip" [(c!"r:embed", p.id)] ++ leafN c!"a:srcRect"
      ++ [.elem c!"a:stretch" [] (leafN c!"a:fillRect")]),
     .elem c!"pic:spPr" [(c!"bwMode", c!"auto")]
      [.elem c!"a:xfrm" [(c!"rot", dec (p.rot * 60 * 1000))]
        (leafN c!"a:off" [(c!"x", c!"0"), (c!"y", c!"0")]
        ++ leafN c!"a:ext" [(c!"cx", dec p.size.1), (c!"cy", dec p.size.2)]),
       .elem c!"a:prstGeom" [(c!"prst", c!"rect")] (leafN c!"a:avLst")]]

theorem pic_inner (p : Pic) : TakesF x (fun _ => picLoop x) Pic.empty p.inner
    { Pic.empty with id := seen p.id, size := (againSize p.size.1, againSize p.size.2) } := by
  have h1 : TakesF x (fun _ => picLoop x) Pic.empty [.elem c!"pic:nvPicPr" []
      (leafN c!"pic:cNvPr" [(c!"id", c!"0"), (c!"name", c!"")]
      ++ [.elem c!"pic:cNvPicPr" []
          (leafN c!"a:picLocks" [(c!"noChangeAspect", c!"1"), (c!"noChangeArrowheads", c!"1")])])] Pic.empty :=
    pic_wrap (by no_pic) ((pic_skip (by no_pic)).append (pic_wrap (by no_pic) (pic_skip (by no_pic))))
  have h2 : TakesF x (fun _ => picLoop x) Pic.empty [.elem c!"pic:blipFill" []
      (leafN c!"a:blip" [(c!"r:embed", p.id)] ++ leafN c!"a:srcRect"
      ++ [.elem c!"a:stretch" [] (leafN c!"a:fillRect")])] { Pic.empty with id := seen p.id } :=
    pic_wrap (by no_pic) (((pic_blip rfl).append (pic_skip (by no_pic))).append (pic_wrap (by no_pic) (pic_skip (by no_pic))))
  have h3 : TakesF x (fun _ => picLoop x) { Pic.empty with id := seen p.id } [.elem c!"pic:spPr" [(c!"bwMode", c!"auto")]
      ([.elem c!"a:xfrm" [(c!"rot", dec (p.rot * 60 * 1000))]
        (leafN c!"a:off" [(c!"x", c!"0"), (c!"y", c!"0")]
        ++ leafN c!"a:ext" [(c!"cx", dec p.size.1), (c!"cy", dec p.size.2)])] ++
       [.elem c!"a:prstGeom" [(c!"prst", c!"rect")] (leafN c!"a:avLst")])]
      { Pic.empty with id := seen p.id, size := (againSize p.size.1, againSize p.size.2) } :=
    pic_wrap (by no_pic) ((pic_wrap (by no_pic) (pic_off.append pic_ext)).append (pic_wrap (by no_pic) (pic_skip (by no_pic))))
  exact (h1.append h2).append h3

theorem returns_pic (p : Pic) :
    Returns x (fun R es => (picLoop x).run R.fuel Pic.empty es) c!"pic:pic" p.inner
      { Pic.empty with id := seen p.id, size := (againSize p.size.1, againSize p.size.2) } :=
  Returns.loop (L := fun _ => picLoop x) (pic_inner p) fun d => by simp [-String.reduceToList, String.toList_inj, picLoop]

/-! ## Positions -/

theorem decodeText_dec (n : Nat) : decodeText (dec n) = some (dec n) :=
  decodeFrom_plainString _ (fun hc => (plain_dec n _ hc).1 rfl) (fun hc => (plain_dec n _ hc).2.1 rfl)

theorem dec_not_blank (n : Nat) : decide (∀ c ∈ dec n, c = ' ' ∨ c = '\t' ∨ c = '\n' ∨ c = '\r') = false := by
  obtain ⟨c, s, e, _⟩ := dec_head n
  have hd : isDigit c = true := by
    have := isDigit_dec (n := n)
    rw [e, List.all_cons, Bool.and_eq_true] at this
    exact this.1
  refine decide_eq_false fun h => ?_
  have := h c (by rw [e]; simp)
  rcases this with rfl | rfl | rfl | rfl <;> revert hd <;> decide

/-- The number read for a position. -/
def DrawingPosition.number : DrawingPosition → Int
  | .offset i => again32 (asU32 i)
  | .align _ => 0

theorem returns_position (q : DrawingPosition) {n stop : Str} (hs : (splitQName n).loc = stop) (h1 : c!"posOffset" ≠ stop) (h2 : c!"align" ≠ stop) :
    Returns x (fun R es => (positionLoop x stop).run R.fuel 0 es) n q.nodes q.number := by
  refine Returns.loop (L := fun _ => positionLoop x stop) ?_ fun d => by simp [positionLoop, hs]
  cases q with
  | offset i =>
    simp only [DrawingPosition.number]
    refine TakesF.text (s₁ := 0) (s₂ := again32 (asU32 i)) (decodeText_dec _) (fun d es hd => rfl) (fun d => ?_) (fun d => ?_)
    · rw [if_neg (fun h => ?_), dec_not_blank]
      · simp only [positionLoop, parseFloat_dec, again32, Bool.false_eq_true, if_false]
      · obtain ⟨c, s, e, _⟩ := dec_head (asU32 i)
        rw [e] at h; cases h
    · show (if (splitQName c!"wp:posOffset").loc = stop then none else some _) = _
      rw [split_wp_posOffset]
      exact if_neg h1
  | align a =>
    simp only [DrawingPosition.number]
    have ht : decodeText a.toStr = some a.toStr := by cases a <;> decide +kernel
    have hf : parseFloat x a.toStr = none := by
      have hi : intOf a.toStr = none := by cases a <;> decide +kernel
      have hn : notNumber a.toStr = true := by cases a <;> decide +kernel
      simp [parseFloat, hi, hn]
    refine TakesF.text (s₁ := 0) (s₂ := 0) ht (fun d es hd => rfl) (fun d => ?_) (fun d => ?_)
    · simp only [positionLoop, hf, ite_self]
    · show (if (splitQName c!"wp:align").loc = stop then none else some _) = _
      rw [split_wp_align]
      exact if_neg h2

/-! ## The loop over `w:drawing` -/

/-- The names the loop over a drawing knows. -/
def drawingNames : List Str := [c!"anchor", c!"inline", c!"simplePos", c!"positionH", c!"positionV", c!"pic", c!"txbx"]

theorem drawing_wrap {n : Str} {as : List (Str × Str)} {f : List Node} {s s' : DrawingState}
    (h : (splitQName n).loc ∉ drawingNames) (hd : elementOf (splitQName n).loc ≠ .drawing) (hf : TakesF x (drawingLoop x) s f s') :
    TakesF x (drawingLoop x) s [.elem n as f] s' := by
  simp only [drawingNames, List.mem_cons, List.not_mem_nil, or_false, not_or] at h
  obtain ⟨h1, h2, h3, h4, h5, h6, h7⟩ := h
  refine TakesF.wrap (fun d es _ => ?_) hf (fun d => ?_)
  · simp only [drawingLoop, if_neg h1, if_neg h2, if_neg h3, if_neg h4, if_neg h5, if_neg h6, if_neg h7]
  · simp only [drawingLoop, closesAt, if_neg hd]

theorem drawing_skip {n : Str} {as : List (Str × Str)} {s : DrawingState}
    (h : (splitQName n).loc ∉ drawingNames) (hd : elementOf (splitQName n).loc ≠ .drawing) :
    TakesF x (drawingLoop x) s (leafN n as) s := drawing_wrap h hd (.nil _)

theorem drawing_pic (p : Pic) (s : DrawingState) :
    TakesF x (drawingLoop x) s p.nodes { s with drawing := .picture (placePic
      { Pic.empty with id := seen p.id, size := (againSize p.size.1, againSize p.size.2) } s.place) } := by
  refine TakesF.child (((returns_pic (x := x) p).caught (g := fun p es =>
      match p with
      | some p => .ok { s with drawing := .picture (placePic p s.place) } es
      | none => .ok s es) (fun es => rfl)).congr (fun d es hd => ?_))
  simp [-String.reduceToList, String.toList_inj, drawingLoop]
  rfl

/-- None of these ends a drawing. -/
theorem not_drawing : ∀ n ∈ [c!"wrapNone", c!"wrapSquare", c!"extent", c!"effectExtent", c!"docPr", c!"cNvGraphicFramePr", c!"graphicFrameLocks",
    c!"graphic", c!"graphicData", c!"anchor", c!"inline", c!"simplePos"], elementOf n ≠ .drawing := by decide +kernel

/-- A name the loop over a drawing does not know. -/
macro "no_drawing" : tactic => `(tactic|
  (simp [-String.reduceToList, String.toList_inj, drawingNames]))

theorem drawing_graphic (p : Pic) (s : DrawingState) :
    TakesF x (drawingLoop x) s (graphicNodes p) { s with drawing := .picture (placePic
      { Pic.empty with id := seen p.id, size := (againSize p.size.1, againSize p.size.2) } s.place) } := by
  have hw : TakesF x (drawingLoop x) s (if p.allowOverlap then leafN c!"wp:wrapNone"
      else if p.positionType = .anchor then leafN c!"wp:wrapSquare" [(c!"wrapText", c!"bothSides")]
      else []) s := by
    split
    · exact drawing_skip (by no_drawing) (not_drawing _ (by no_drawing))
    · split
      · exact drawing_skip (by no_drawing) (not_drawing _ (by no_drawing))
      · exact .nil _
  exact ((((drawing_skip (by no_drawing) (not_drawing _ (by no_drawing))).append (drawing_skip (by no_drawing) (not_drawing _ (by no_drawing)))).append hw).append
    (drawing_skip (by no_drawing) (not_drawing _ (by no_drawing)))).append
    (TakesF.append (f := [_]) (drawing_wrap (by no_drawing) (not_drawing _ (by no_drawing)) (drawing_skip (by no_drawing) (not_drawing _ (by no_drawing))))
      (drawing_wrap (by no_drawing) (not_drawing _ (by no_drawing)) (drawing_wrap (by no_drawing) (not_drawing _ (by no_drawing)) (drawing_pic p s))))

/-- The variables at the start. -/
def place₀ : Pic := { Pic.empty with layoutInCell := true, relativeHeight := 0, allowOverlap := true }

theorem readInline_attrs (p : Pic) :
    readInline x (expectAttrs [(c!"distT", decInt p.distT), (c!"distB", decInt p.distB), (c!"distL", decInt p.distL), (c!"distR", decInt p.distR)]) place₀ =
      { place₀ with distT := again32 p.distT, distB := again32 p.distB, distL := again32 p.distL, distR := (parseSigned 32 (decInt p.distR)).getD 0 } := by
  have s1 := split_bare c!"distT" (by simp)
  have s2 := split_bare c!"distB" (by simp)
  have s3 := split_bare c!"distL" (by simp)
  have s4 := split_bare c!"distR" (by simp)
  simp only [expectAttrs_decInt, expectAttrs_nil]
  unfold readInline
  rw [attrI32_decInt (i := p.distT), attrI32_decInt (i := p.distB), attrI32_decInt (i := p.distL)]
  · simp [-String.reduceToList, String.toList_inj, attrNamed_cons, s1, s2, s3, s4]
    exact ⟨rfl, rfl⟩
  all_goals simp [-String.reduceToList, String.toList_inj, attrNamed_cons, s1, s2, s3, s4]

theorem bit_lit (b : Bool) : decodeAttr (bitText b) = some (bitText b) := by cases b <;> decide +kernel
theorem bit_false (b : Bool) : isFalse (bitText b) = !b := by cases b <;> decide +kernel

theorem readAnchor_attrs (p : Pic) :
    readAnchor x (expectAttrs [(c!"distT", decInt p.distT), (c!"distB", decInt p.distB),
          (c!"distL", decInt p.distL), (c!"distR", decInt p.distR), (c!"simplePos", c!"0"),
          (c!"allowOverlap", bitText p.simplePos), (c!"behindDoc", c!"0"), (c!"locked", c!"0"),
          (c!"layoutInCell", bitText p.layoutInCell), (c!"relativeHeight", dec p.relativeHeight)]) place₀ =
      { place₀ with
        positionType := .anchor, simplePos := false, distT := again32 p.distT, distB := again32 p.distB, distL := again32 p.distL
        distR := again32 p.distR, layoutInCell := p.layoutInCell, relativeHeight := toU32 (roundInt 53 p.relativeHeight), allowOverlap := p.simplePos } := by
  have s1 := split_bare c!"distT" (by simp)
  have s2 := split_bare c!"distB" (by simp)
  have s3 := split_bare c!"distL" (by simp)
  have s4 := split_bare c!"distR" (by simp)
  have s5 := split_bare c!"simplePos" (by simp)
  have s6 := split_bare c!"allowOverlap" (by simp)
  have s7 := split_bare c!"behindDoc" (by simp)
  have s8 := split_bare c!"locked" (by simp)
  have s9 := split_bare c!"layoutInCell" (by simp)
  have s10 := split_bare c!"relativeHeight" (by simp)
  have h0 : decodeAttr c!"0" = some c!"0" := by decide +kernel
  have h0' : isFalse c!"0" = true := by decide +kernel
  simp only [expectAttrs_decInt, expectAttrs_nil, expectAttrs_lit _ _ h0, expectAttrs_lit _ _ (bit_lit _), expectAttrs_dec]
  unfold readAnchor
  rw [attrI32_decInt (i := p.distT), attrI32_decInt (i := p.distB), attrI32_decInt (i := p.distL), attrI32_decInt (i := p.distR)]
  · have e1 : place₀.simplePos = false := rfl
    have e2 : place₀.layoutInCell = true := rfl
    have e3 : place₀.allowOverlap = true := rfl
    simp [-String.reduceToList, String.toList_inj, attrNamed_cons, s1, s2, s3, s4, s5, s6, s7, s8, s9, s10, h0', bit_false, parseFloat_dec, e1, e2, e3]
  all_goals simp [-String.reduceToList, String.toList_inj, attrNamed_cons, s1, s2, s3, s4, s5, s6, s7, s8, s9, s10]

theorem relativeH_again (t : RelativeFromHType) :
    relativeTo RelativeFromHType.fromStr .margin (expectAttrs [(c!"relativeFrom", t.toStr)]) = t := by
  have s1 := split_bare c!"relativeFrom" (by simp)
  have ht : decodeAttr t.toStr = some t.toStr := by cases t <;> decide +kernel
  simp [-String.reduceToList, String.toList_inj, relativeTo, expectAttrs_lit _ _ ht, attrNamed_cons, s1, Props.C31_RelativeFromHType]

theorem relativeV_again (t : RelativeFromVType) :
    relativeTo RelativeFromVType.fromStr .margin (expectAttrs [(c!"relativeFrom", t.toStr)]) = t.reread := by
  have s1 := split_bare c!"relativeFrom" (by simp)
  have ht : decodeAttr t.toStr = some t.toStr := by cases t <;> decide +kernel
  have hr : (RelativeFromVType.fromStr t.toStr).getD .margin = t.reread := by cases t <;> decide +kernel
  simp [-String.reduceToList, relativeTo, expectAttrs_lit _ _ ht, attrNamed_cons, s1, hr]

theorem drawing_positionH (p : Pic) (s : DrawingState) :
    TakesF x (drawingLoop x) s [.elem c!"wp:positionH" [(c!"relativeFrom", p.relativeFromH.toStr)] p.positionH.nodes]
      { s with place := { s.place with relativeFromH := p.relativeFromH, positionH := .offset p.positionH.number } } := by
  refine TakesF.child (((returns_position (x := x) p.positionH (n := c!"wp:positionH") (stop := c!"positionH") (by rw [split_wp_positionH]) (by decide) (by decide)).caught
    (g := fun i es => match i with
      | some i => .ok { s with place := { s.place with relativeFromH := p.relativeFromH, positionH := .offset i } } es
      | none => .ok s es) (fun es => rfl)).congr (fun d es hd => ?_))
  simp [-String.reduceToList, String.toList_inj, drawingLoop, relativeH_again]
  rfl

theorem drawing_positionV (p : Pic) (s : DrawingState) :
    TakesF x (drawingLoop x) s [.elem c!"wp:positionV" [(c!"relativeFrom", p.relativeFromV.toStr)] p.positionV.nodes]
      { s with place := { s.place with relativeFromV := p.relativeFromV.reread, positionV := .offset p.positionV.number } } := by
  refine TakesF.child (((returns_position (x := x) p.positionV (n := c!"wp:positionV") (stop := c!"positionV") (by rw [split_wp_positionV]) (by decide) (by decide)).caught
    (g := fun i es => match i with
      | some i => .ok { s with place := { s.place with relativeFromV := p.relativeFromV.reread, positionV := .offset i } } es
      | none => .ok s es) (fun es => rfl)).congr (fun d es hd => ?_))
  simp [-String.reduceToList, String.toList_inj, drawingLoop, relativeV_again]
  rfl

theorem drawing_simplePos (p : Pic) (s : DrawingState) :
    TakesF x (drawingLoop x) s (leafN c!"wp:simplePos" [(c!"x", decInt p.simplePosX), (c!"y", decInt p.simplePosY)])
      { s with place := { s.place with simplePosX := again32 p.simplePosX, simplePosY := again32 p.simplePosY } } := by
  have s1 := split_bare c!"x" (by simp)
  have s2 := split_bare c!"y" (by simp)
  refine TakesF.leaf' (fun d es hd => ?_) (fun d => ?_)
  · simp only [expectAttrs_decInt, expectAttrs_nil]
    have h1 : attrI32 x [(splitQName c!"x", decInt p.simplePosX), (splitQName c!"y", decInt p.simplePosY)] c!"x" s.place.simplePosX = again32 p.simplePosX :=
      attrI32_decInt (by simp [-String.reduceToList, String.toList_inj, attrNamed_cons, s1, s2])
    have h2 : attrI32 x [(splitQName c!"x", decInt p.simplePosX), (splitQName c!"y", decInt p.simplePosY)] c!"y" s.place.simplePosY = again32 p.simplePosY :=
      attrI32_decInt (by simp [-String.reduceToList, String.toList_inj, attrNamed_cons, s1, s2])
    have hn : (splitQName c!"wp:simplePos").loc = c!"simplePos" := by rw [split_wp_simplePos]
    simp only [drawingLoop]
    rw [if_neg (by rw [hn]; decide), if_neg (by rw [hn]; decide), if_pos hn, h1, h2]
  · show closesAt .drawing _ (splitQName c!"wp:simplePos") = _
    rw [split_wp_simplePos]
    exact if_neg (not_drawing c!"simplePos" (by no_drawing))

/-- The inside of `w:drawing`. -/
def drawingInner (p : Pic) : List Node :=
  match p.positionType with
  | .inline =>
    [.elem c!"wp:inline" [(c!"distT", decInt p.distT), (c!"distB", decInt p.distB),
      (c!"distL", decInt p.distL), (c!"distR", decInt p.distR)] (graphicNodes p)]
  | .anchor =>
    [.elem c!"wp:anchor" [(c!"distT", decInt p.distT), (c!"distB", decInt p.distB),
      (c!"distL", decInt p.distL), (c!"distR", decInt p.distR), (c!"simplePos", c!"0"),
      (c!"allowOverlap", bitText p.simplePos), (c!"behindDoc", c!"0"), (c!"locked", c!"0"),
      (c!"layoutInCell", bitText p.layoutInCell), (c!"relativeHeight", dec p.relativeHeight)]
      (leafN c!"wp:simplePos" [(c!"x", decInt p.simplePosX), (c!"y", decInt p.simplePosY)]
      ++ ([.elem c!"wp:positionH" [(c!"relativeFrom", p.relativeFromH.toStr)] p.positionH.nodes] ++
          [.elem c!"wp:positionV" [(c!"relativeFrom", p.relativeFromV.toStr)] p.positionV.nodes])
      ++ graphicNodes p)]

theorem TakesF.wrap' {L : Readers → Loop σ} {s s₁ s₂ : σ} {n : Str} {as : List (Str × Str)} {f : List Node}
    (h₁ : ∀ d es, 1 ≤ d → (L (readers x d)).start s (splitQName n) (expectAttrs as) es = .ok s₁ es)
    (h₂ : TakesF x L s₁ f s₂) (h₃ : ∀ d, (L (readers x d)).close s₂ (splitQName n) = some s₂) :
    TakesF x L s [.elem n as f] s₂ := .wrap h₁ h₂ h₃

theorem drawing_inner (p : Pic) :
    ∃ s', TakesF x (drawingLoop x) {} (drawingInner p) s' ∧ s'.drawing = .picture p.reread := by
  unfold drawingInner
  cases hp : p.positionType with
  | inline =>
    refine ⟨_, TakesF.wrap' (fun d es hd => ?_) (drawing_graphic p { place := readInline x (expectAttrs [(c!"distT", decInt p.distT), (c!"distB", decInt p.distB), (c!"distL", decInt p.distL), (c!"distR", decInt p.distR)]) place₀ }) (fun d => ?_), ?_⟩
    · simp [-String.reduceToList, String.toList_inj, drawingLoop]
      rfl
    · show closesAt .drawing _ (splitQName c!"wp:inline") = _
      rw [split_wp_inline]
      exact if_neg (not_drawing c!"inline" (by no_drawing))
    · simp only [readInline_attrs, Pic.reread, hp]
      rfl
  | anchor =>
    refine ⟨_, TakesF.wrap' (fun d es hd => ?_) (((drawing_simplePos p { place := readAnchor x (expectAttrs [(c!"distT", decInt p.distT), (c!"distB", decInt p.distB),
          (c!"distL", decInt p.distL), (c!"distR", decInt p.distR), (c!"simplePos", c!"0"),
          (c!"allowOverlap", bitText p.simplePos), (c!"behindDoc", c!"0"), (c!"locked", c!"0"),
          (c!"layoutInCell", bitText p.layoutInCell), (c!"relativeHeight", dec p.relativeHeight)]) place₀ }).append
      ((drawing_positionH p _).append (drawing_positionV p _))).append (drawing_graphic p _)) (fun d => ?_), ?_⟩
    · simp [-String.reduceToList, String.toList_inj, drawingLoop]
      rfl
    · show closesAt .drawing _ (splitQName c!"wp:anchor") = _
      rw [split_wp_anchor]
      exact if_neg (not_drawing c!"anchor" (by no_drawing))
    · simp only [readAnchor_attrs, Pic.reread, hp]
      cases p.positionH <;> cases p.positionV <;> rfl

theorem drawingNodes_eq (p : Pic) : drawingNodes p = [.elem c!"w:drawing" [] (drawingInner p)] := by
  unfold drawingNodes drawingInner
  cases p.positionType <;> rfl

/-- A picture read back. -/
theorem returns_drawing (p : Pic) :
    Returns x (fun R es => readDrawing x R es) c!"w:drawing" (drawingInner p) (.picture p.reread) := by
  obtain ⟨s', h1, h2⟩ := drawing_inner (x := x) p
  have := (Returns.loop h1 (n := c!"w:drawing") fun d => by
    simp [-String.reduceToList, String.toList_inj, drawingLoop, closesAt]).map DrawingState.drawing
  rw [h2] at this
  exact this

end Docx
