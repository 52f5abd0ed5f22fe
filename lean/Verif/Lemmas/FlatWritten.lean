import Verif.Lemmas.FlatRead
import Verif.Lemmas.FileRead

/-!
# The relationships of a written package, in the order in which they are written
-/

namespace Docx

open Docx.Spec Docx.Xml Docx.Props

/-- The type, the id and the target. -/
def triple (q : Relation) : Str × Str × Str := (q.type, q.id, q.target)

theorem takes_triples {x : ReadEnv} : ∀ (l : List Relation) (acc : List (Str × Str × Str)), (∀ r ∈ l, r.Decodes) →
    TakesF x (fun _ => packageRelsLoop) (1, acc) (l.flatMap relationN) (1, acc ++ (l.map Relation.seen).map triple)
  | [], acc, _ => by rw [List.map_nil, List.map_nil, List.append_nil]; exact .nil _
  | r :: l, acc, h => by
    rw [List.flatMap_cons, List.map_cons, List.map_cons,
      show acc ++ triple r.seen :: (l.map Relation.seen).map triple =
        (acc ++ [triple r.seen]) ++ (l.map Relation.seen).map triple by simp]
    refine TakesF.append ?_ (takes_triples l _ fun r hr => h r (.tail _ hr))
    refine TakesF.wrap (s₁ := (2, acc ++ [triple r.seen])) (s₂ := (2, acc ++ [triple r.seen])) (fun d es _ => ?_) (.nil _) (fun d => rfl)
    simp only [packageRelsLoop]
    rw [relation_attrs (h r (.head _))]
    rfl

/-- The relationships of a part, read as those of the package are. -/
theorem reads_triples (sa : Option Bool) (l : List Relation) (hok : OkF (relationshipsN (l.flatMap relationN))) (h : ∀ r ∈ l, r.Decodes) :
    ∃ k, ∀ n, k ≤ n → (readPackageRels n (constText sa (relationshipsN (l.flatMap relationN)))).got =
      .ok ⟨(l.map Relation.seen).map triple⟩ := by
  have x : ReadEnv := ⟨fun _ => none, fun _ => none, fun _ => none, []⟩
  obtain ⟨es, k, hk⟩ := runs_document (x := x) (L := fun _ => packageRelsLoop) (s := ((0 : Int), []))
    (s' := (0, (l.map Relation.seen).map triple)) (f := relationshipsN (l.flatMap relationN))
    (TakesF.wrap (s₁ := (1, [])) (s₂ := (1, (l.map Relation.seen).map triple)) (fun d es _ => rfl)
      (by have := takes_triples (x := x) l [] h; simpa using this) (fun d => rfl))
    (fun d => rfl)
  refine ⟨k, fun n hn => ?_⟩
  rw [readPackageRels, constText_reads sa hok, hk k (Nat.le_refl _) n hn]
  rfl

/-- The relationships of the main document of a written package: what they are, and what `Rels::from_xml` makes of them. -/
theorem document_triples {cs : List Call} {d : DocxFile} {env : Env} {w : World} {es : List Entry} (hc : DocxFile.new.calls cs = some d)
    (hp : ∀ l, (env.links l).Perm l) (hm : Made d.document) (h : Packed env d w es) :
    ∃ s k, ⟨c!"word/_rels/document.xml.rels", .text s⟩ ∈ es ∧ ∃ (r : DocumentRels) (imgs ls : List (Str × Str)),
      (∀ n, k ≤ n → (readPackageRels n s).got = .ok ⟨(r.fixedRelations ++ r.partRelations ++ imgs.map imageRelation ++ ls.map linkRelation).map
        triple⟩) ∧ r.hasNumberings = d.documentRels.hasNumberings := by
  obtain ⟨r, ls, h1, h2, h3, h4, _, h5, _⟩ := packed_rels_written (calls_sound hc) hp hm.nameable h
  generalize (collectImages env.crc (d.prepareForBuild env w).1.document).documentRels = imgs at h3
  have hstr := h2
  have hdec : ∀ q ∈ r.relations, q.Decodes := by
    intro q hq
    unfold DocumentRels.relations at hq
    simp only [List.mem_append] at hq
    unfold DocumentRels.strings at hstr
    rcases hq with ((hq | hq) | hq) | hq
    · exact (fixed_plain r q hq).decodes
    · exact (parts_plain r q hq).decodes
    · obtain ⟨y, hy, rfl⟩ := List.mem_map.1 hq
      refine ⟨?_, (plain_lit (s := officeRel c!"image") (by decide)).stored.2.1, ?_, fun m e => by cases e⟩
      · exact (hstr y.1 (List.mem_append_left _ (List.mem_flatMap.2 ⟨y, hy, .head _⟩))).2.1
      · exact (hstr y.2 (List.mem_append_left _ (List.mem_flatMap.2 ⟨y, hy, .tail _ (.head _)⟩))).2.1
    · obtain ⟨y, hy, rfl⟩ := List.mem_map.1 hq
      refine ⟨?_, (plain_lit (s := officeRel c!"hyperlink") (by decide)).stored.2.1, ?_, fun m e => ?_⟩
      · exact (hstr y.1 (List.mem_append_right _ (List.mem_flatMap.2 ⟨y, hy, .head _⟩))).2.1
      · exact (hstr y.2.1 (List.mem_append_right _ (List.mem_flatMap.2 ⟨y, hy, .tail _ (.head _)⟩))).2.1
      · obtain rfl := Option.some.inj e
        exact (hstr y.2.2 (List.mem_append_right _ (List.mem_flatMap.2 ⟨y, hy, .tail _ (.tail _ (.head _))⟩))).2.1
  have hrs : r.relations.map Relation.seen = r.fixedRelations ++ r.partRelations ++ imgs.map imageRelation ++ ls.map linkRelation := by
    rw [← decode_seen hdec]
    unfold DocumentRels.relations
    rw [List.filterMap_append, List.filterMap_append, List.filterMap_append, decode_plain (fixed_plain r), decode_plain (parts_plain r), h3, h4]
  have hok : OkF (relationshipsN (r.relations.flatMap relationN)) := by
    rw [← documentRels_nodes]
    exact DocumentRels.ok r h2
  obtain ⟨k, hk⟩ := reads_triples none r.relations hok hdec
  refine ⟨_, k, h1, r, imgs, ls, fun n hn => ?_, h5⟩
  rw [documentRels_nodes, hk n hn, hrs]

end Docx
