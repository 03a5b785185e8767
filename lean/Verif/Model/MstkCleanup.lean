import Verif.Model.MstkExtract
/-
The end of `extract_mstk_mesh` (src/mesh/mesh_mstk/Mesh_MSTK.cc:1121-1201): the marks that the extraction has left on the entities of
the source mesh (attribute `copyatt`) are removed before the attribute itself is deleted. MSTK keeps the values of attributes with the
entities, so that a value that is not removed refers to an attribute that does not exist any more.
-/
namespace Jali.Mstk

variable {m : MMesh} {α : Type}

/-- `MEnt_Rem_AttVal(mv, copyatt)` and so on -/
def Copy.remV (s : Copy m α) (v : Fin m.nv) : Copy m α := { s with cv := Function.update s.cv v none }
def Copy.remE (s : Copy m α) (e : Fin m.ne) : Copy m α := { s with ce := Function.update s.ce e none }
def Copy.remF (s : Copy m α) (f : Fin m.nf) : Copy m α := { s with cf := Function.update s.cf f none }
def Copy.remR (s : Copy m α) (r : Fin m.nr) : Copy m α := { s with cr := Function.update s.cr r none }

/-- a region of the list (Mesh_MSTK.cc:1127-1149) -/
def cleanRegion (s : Copy m α) (r : Fin m.nr) : Copy m α :=
  (((m.region r).faces.map Prod.fst).foldl (fun (s : Copy m α) f =>
    ((m.mfVertices (m.face f) true).foldl Copy.remV (s.remF f)).remF f) s).remR r

/-- a face of the list (Mesh_MSTK.cc:1156-1169): of each edge the vertex `MF_EdgeDir_i` -/
def cleanFace (s : Copy m α) (f : Fin m.nf) : Copy m α :=
  ((m.face f).edges.foldl (fun (s : Copy m α) p =>
    (s.remE p.1).remV (if p.2 then (m.edge p.1).v1 else (m.edge p.1).v0)) s).remF f

/-- `extract_mstk_mesh` from a list of faces, followed by the removal of the marks: what is left on the source -/
def marksAfterFaces [Zero α] (src : Source α) (flatten : Bool) (l : List (Fin src.j.m.nf)) : Copy src.j.m α :=
  l.foldl cleanFace (l.foldl (copyFace2 src.xyz flatten) {})

/-- the same for regions -/
def marksAfterRegions [Zero α] (src : Source α) (l : List (Fin src.j.m.nr)) : Copy src.j.m α :=
  l.foldl cleanRegion (l.foldl (copyRegion src.xyz) {})

end Jali.Mstk
