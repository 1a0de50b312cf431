import Verif.Model.TorchUtils
import Mathlib.Data.List.Sort

/-!
# Model of `torch_geometric.nn.models.dimenet.triplets`

This function is called by `BatchTriplets.__init__` (`/repo/ramannoodle/pmodel/torch/_utils.py`
L156-160) but belongs to an external library, whose source is not available here.  The model follows
the published source of version 2 of the library, quoted from memory and not checked against an
installed copy:

```
row, col = edge_index                                   # j -> i
adj_t = SparseTensor(row=col, col=row, value=arange(E))  # sorted by row, then by column
adj_t_row = adj_t[row]
idx_i = col.repeat_interleave(num_triplets)
idx_j = row.repeat_interleave(num_triplets)
idx_k = adj_t_row.storage.col()
mask = idx_i != idx_k
idx_kj = adj_t_row.storage.value()[mask]
idx_ji = adj_t_row.storage.row()[mask]
return col, row, idx_i, idx_j, idx_k, idx_kj, idx_ji
```

Theorems about the other modules do not use this model; they take any function as `dimenet`.
-/

namespace Verif

/-- An edge `(row, col)` with its number. -/
abbrev NumberedEdge := (ℕ × ℕ) × ℕ

/-- Row `node` of `adj_t`: the edges ending at `node`, ordered by the node they start from. -/
def edgesInto (edges : List (ℕ × ℕ)) (node : ℕ) : List NumberedEdge :=
  (edges.zipIdx.filter fun f => f.1.2 == node).insertionSort fun f g => f.1.1 ≤ g.1.1

/-- Pairs of an edge `j -> i` and an edge `k -> j` with `i != k`, in the order of the result. -/
def edgePaths (edges : List (ℕ × ℕ)) : List (NumberedEdge × NumberedEdge) :=
  edges.zipIdx.flatMap fun e =>
    ((edgesInto edges e.1.1).filter fun f => e.1.2 != f.1.1).map fun f => (e, f)

/-- `triplets(edge_index, num_nodes)`; the names of the fields are those given by the caller,
_utils.py L196, so that the sixth tensor of the result (`idx_kj`) is `indexJi`. -/
def pygTriplets (edges : List (ℕ × ℕ)) (_numNodes : ℕ) : Triplets :=
  let paths := edgePaths edges
  { i := edges.map fun e => e.2
    j := edges.map fun e => e.1
    indexI := paths.map fun p => p.1.1.2
    indexJ := paths.map fun p => p.1.1.1
    indexK := paths.map fun p => p.2.1.1
    indexJi := paths.map fun p => p.2.2
    indexKj := paths.map fun p => p.1.2 }

end Verif
