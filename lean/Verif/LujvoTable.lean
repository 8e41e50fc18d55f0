import Verif.Token
/-!
# Tables for lujvo

`gismu`, `rafsi`, `start_indices`, `n_rafsi` of `jvocuhadju.c` (lines 104-652), and the table
`canonluj.inc` that `canonluj.pl` makes from `reduced_gismu`; both transcribed by a script.
-/

namespace Jbo.Lujvo

/-- `jvocuhadju.c:104-652`: each entry is `gismu[i]` with `rafsi[start_indices[i]]`, ...,
`rafsi[start_indices[i]+n_rafsi[i]-1]`, entries 0-99. -/
def wordTable0 : List (Word × List Word) := [
  (['b', 'a', 'c', 'r', 'u'], [['b', 'a', '\'', 'u']]),
  (['b', 'a', 'd', 'n', 'a'], []),
  (['b', 'a', 'd', 'r', 'i'], [['d', 'r', 'i']]),
  (['b', 'a', 'j', 'r', 'a'], [['b', 'a', 'j']]),
  (['b', 'a', 'k', 'f', 'u'], [['b', 'a', 'f']]),
  (['b', 'a', 'k', 'n', 'i'], [['b', 'a', 'k']]),
  (['b', 'a', 'k', 'r', 'i'], []),
  (['b', 'a', 'k', 't', 'u'], []),
  (['b', 'a', 'l', 'j', 'i'], []),
  (['b', 'a', 'l', 'n', 'i'], []),
  (['b', 'a', 'l', 'r', 'e'], [['b', 'a', '\'', 'e']]),
  (['b', 'a', 'l', 'v', 'i'], [['b', 'a', 'v']]),
  (['b', 'a', 'n', 'c', 'u'], [['b', 'a', 'c']]),
  (['b', 'a', 'n', 'd', 'u'], [['b', 'a', 'd']]),
  (['b', 'a', 'n', 'f', 'i'], []),
  (['b', 'a', 'n', 'g', 'u'], [['b', 'a', 'n'], ['b', 'a', 'u']]),
  (['b', 'a', 'n', 'l', 'i'], [['b', 'a', 'l'], ['b', 'a', '\'', 'i']]),
  (['b', 'a', 'n', 'r', 'o'], [['b', 'a', '\'', 'o']]),
  (['b', 'a', 'n', 'x', 'a'], [['b', 'a', 'x']]),
  (['b', 'a', 'n', 'z', 'u'], [['b', 'a', 'z']]),
  (['b', 'a', 'p', 'l', 'i'], [['b', 'a', 'p'], ['b', 'a', 'i']]),
  (['b', 'a', 'r', 'd', 'a'], [['b', 'r', 'a']]),
  (['b', 'a', 'r', 'g', 'u'], [['b', 'a', 'g']]),
  (['b', 'a', 'r', 'j', 'a'], []),
  (['b', 'a', 'r', 'n', 'a'], [['b', 'a', '\'', 'a']]),
  (['b', 'a', 'r', 't', 'u'], [['b', 'a', 'r']]),
  (['b', 'a', 's', 'n', 'a'], []),
  (['b', 'a', 's', 't', 'i'], [['b', 'a', 's']]),
  (['b', 'a', 't', 'c', 'i'], [['b', 'a', 't']]),
  (['b', 'a', 't', 'k', 'e'], []),
  (['b', 'a', 'v', 'm', 'i'], []),
  (['b', 'a', 'x', 's', 'o'], []),
  (['b', 'e', 'b', 'n', 'a'], [['b', 'e', 'b']]),
  (['b', 'e', 'm', 'r', 'o'], [['b', 'e', 'm'], ['b', 'e', '\'', 'o']]),
  (['b', 'e', 'n', 'd', 'e'], [['b', 'e', 'd'], ['b', 'e', '\'', 'e']]),
  (['b', 'e', 'n', 'g', 'o'], [['b', 'e', 'g']]),
  (['b', 'e', 'n', 'j', 'i'], [['b', 'e', 'j'], ['b', 'e', '\'', 'i']]),
  (['b', 'e', 'r', 's', 'a'], [['b', 'e', 's'], ['b', 'e', '\'', 'a']]),
  (['b', 'e', 'r', 't', 'i'], [['b', 'e', 'r']]),
  (['b', 'e', 's', 'n', 'a'], [['b', 'e', 'n']]),
  (['b', 'e', 't', 'f', 'u'], [['b', 'e', 'f'], ['b', 'e', '\'', 'u']]),
  (['b', 'e', 't', 'r', 'i'], [['b', 'e', 't']]),
  (['b', 'e', 'v', 'r', 'i'], [['b', 'e', 'v'], ['b', 'e', 'i']]),
  (['b', 'i'], [['b', 'i', 'v']]),
  (['b', 'i', '\'', 'i'], [['b', 'i', 'z']]),
  (['b', 'i', 'd', 'j', 'u'], []),
  (['b', 'i', 'f', 'c', 'e'], [['b', 'i', 'c']]),
  (['b', 'i', 'k', 'l', 'a'], [['b', 'i', 'k']]),
  (['b', 'i', 'l', 'g', 'a'], [['b', 'i', 'g']]),
  (['b', 'i', 'l', 'm', 'a'], [['b', 'i', '\'', 'a']]),
  (['b', 'i', 'l', 'n', 'i'], [['b', 'i', 'l']]),
  (['b', 'i', 'n', 'd', 'o'], [['b', 'i', 'd']]),
  (['b', 'i', 'n', 'r', 'a'], []),
  (['b', 'i', 'n', 'x', 'o'], [['b', 'i', 'x'], ['b', 'i', '\'', 'o']]),
  (['b', 'i', 'r', 'j', 'e'], []),
  (['b', 'i', 'r', 'k', 'a'], [['b', 'i', 'r']]),
  (['b', 'i', 'r', 't', 'i'], [['b', 'i', 't']]),
  (['b', 'i', 's', 'l', 'i'], [['b', 'i', 's']]),
  (['b', 'i', 't', 'm', 'u'], [['b', 'i', 'm'], ['b', 'i', '\'', 'u']]),
  (['b', 'l', 'a', 'b', 'i'], [['l', 'a', 'b']]),
  (['b', 'l', 'a', 'c', 'i'], []),
  (['b', 'l', 'a', 'n', 'u'], [['b', 'l', 'a']]),
  (['b', 'l', 'i', 'k', 'u'], [['b', 'l', 'i']]),
  (['b', 'l', 'o', 't', 'i'], [['l', 'o', 't'], ['b', 'l', 'o'], ['l', 'o', '\'', 'i']]),
  (['b', 'o'], [['b', 'o', 'r']]),
  (['b', 'o', 'l', 'c', 'i'], [['b', 'o', 'l'], ['b', 'o', 'i']]),
  (['b', 'o', 'n', 'g', 'u'], [['b', 'o', 'g'], ['b', 'o', '\'', 'u']]),
  (['b', 'o', 't', 'p', 'i'], [['b', 'o', 't'], ['b', 'o', '\'', 'i']]),
  (['b', 'o', 'x', 'f', 'o'], [['b', 'o', 'f'], ['b', 'o', '\'', 'o']]),
  (['b', 'o', 'x', 'n', 'a'], [['b', 'o', 'n'], ['b', 'o', '\'', 'a']]),
  (['b', 'r', 'a', 'd', 'i'], []),
  (['b', 'r', 'a', 't', 'u'], []),
  (['b', 'r', 'a', 'z', 'o'], [['r', 'a', 'z']]),
  (['b', 'r', 'e', 'd', 'i'], [['r', 'e', 'd'], ['b', 'r', 'e']]),
  (['b', 'r', 'i', 'd', 'i'], [['b', 'r', 'i']]),
  (['b', 'r', 'i', 'f', 'e'], [['b', 'i', 'f'], ['b', 'i', '\'', 'e']]),
  (['b', 'r', 'i', 'j', 'u'], [['b', 'i', 'j']]),
  (['b', 'r', 'i', 't', 'o'], [['r', 'i', 't']]),
  (['b', 'r', 'o', 'd', 'a'], [['r', 'o', 'd']]),
  (['b', 'r', 'o', 'd', 'e'], [['b', 'o', '\'', 'e']]),
  (['b', 'r', 'o', 'd', 'i'], []),
  (['b', 'r', 'o', 'd', 'o'], []),
  (['b', 'r', 'o', 'd', 'u'], []),
  (['b', 'r', 'u', 'n', 'a'], [['b', 'u', 'n'], ['b', 'u', '\'', 'a']]),
  (['b', 'u'], [['b', 'u', 's'], ['b', 'u', '\'', 'i']]),
  (['b', 'u', '\'', 'a'], [['b', 'u', 'l']]),
  (['b', 'u', 'd', 'j', 'o'], [['b', 'u', 'j'], ['b', 'u', '\'', 'o']]),
  (['b', 'u', 'k', 'p', 'u'], [['b', 'u', 'k'], ['b', 'u', '\'', 'u']]),
  (['b', 'u', 'm', 'r', 'u'], [['b', 'u', 'm']]),
  (['b', 'u', 'n', 'd', 'a'], [['b', 'u', 'd']]),
  (['b', 'u', 'n', 'r', 'e'], [['b', 'u', 'r'], ['b', 'u', '\'', 'e']]),
  (['b', 'u', 'r', 'c', 'u'], [['b', 'r', 'u']]),
  (['b', 'u', 'r', 'n', 'a'], []),
  (['c', 'a', '\'', 'a'], [['c', 'a', 'z']]),
  (['c', 'a', 'b', 'n', 'a'], [['c', 'a', 'b']]),
  (['c', 'a', 'b', 'r', 'a'], [['c', 'a', '\'', 'a']]),
  (['c', 'a', 'c', 'r', 'a'], []),
  (['c', 'a', 'd', 'z', 'u'], [['d', 'z', 'u']]),
  (['c', 'a', 'f', 'n', 'e'], [['c', 'a', 'f']]),
  (['c', 'a', 'k', 'l', 'a'], [])]

/-- `jvocuhadju.c:104-652`: each entry is `gismu[i]` with `rafsi[start_indices[i]]`, ...,
`rafsi[start_indices[i]+n_rafsi[i]-1]`, entries 100-199. -/
def wordTable1 : List (Word × List Word) := [
  (['c', 'a', 'l', 'k', 'u'], [['c', 'a', 'k']]),
  (['c', 'a', 'n', 'c', 'i'], []),
  (['c', 'a', 'n', 'd', 'o'], [['c', 'a', 'd']]),
  (['c', 'a', 'n', 'g', 'e'], [['c', 'a', 'g']]),
  (['c', 'a', 'n', 'j', 'a'], [['c', 'a', 'j']]),
  (['c', 'a', 'n', 'k', 'o'], [['c', 'a', '\'', 'o']]),
  (['c', 'a', 'n', 'l', 'u'], [['c', 'a', 'l'], ['c', 'a', '\'', 'u']]),
  (['c', 'a', 'n', 'p', 'a'], [['c', 'n', 'a']]),
  (['c', 'a', 'n', 'r', 'e'], [['c', 'a', 'n']]),
  (['c', 'a', 'n', 't', 'i'], []),
  (['c', 'a', 'r', 'c', 'e'], []),
  (['c', 'a', 'r', 'm', 'i'], [['c', 'a', 'm'], ['c', 'a', 'i']]),
  (['c', 'a', 'r', 'n', 'a'], [['c', 'a', 'r']]),
  (['c', 'a', 'r', 't', 'u'], [['c', 'a', 't']]),
  (['c', 'a', 'r', 'v', 'i'], [['c', 'a', 'v']]),
  (['c', 'a', 's', 'n', 'u'], [['s', 'n', 'u']]),
  (['c', 'a', 't', 'k', 'e'], [['c', 'a', '\'', 'e']]),
  (['c', 'a', 't', 'l', 'u'], [['c', 't', 'a']]),
  (['c', 'a', 't', 'n', 'i'], [['c', 'a', '\'', 'i']]),
  (['c', 'a', 't', 'r', 'a'], []),
  (['c', 'a', 'x', 'n', 'o'], [['c', 'a', 'x']]),
  (['c', 'e'], [['c', 'e', 'c']]),
  (['c', 'e', '\'', 'i'], [['c', 'e', 'z']]),
  (['c', 'e', '\'', 'o'], [['c', 'e', '\'', 'o']]),
  (['c', 'e', 'c', 'l', 'a'], [['c', 'e', 'l'], ['c', 'e', '\'', 'a']]),
  (['c', 'e', 'c', 'm', 'u'], [['c', 'e', 'm'], ['c', 'e', '\'', 'u']]),
  (['c', 'e', 'd', 'r', 'a'], []),
  (['c', 'e', 'n', 'b', 'a'], [['c', 'n', 'e']]),
  (['c', 'e', 'n', 's', 'a'], [['c', 'e', 's']]),
  (['c', 'e', 'n', 't', 'i'], [['c', 'e', 'n']]),
  (['c', 'e', 'r', 'd', 'a'], [['c', 'e', 'd']]),
  (['c', 'e', 'r', 'n', 'i'], [['c', 'e', 'r']]),
  (['c', 'e', 'r', 't', 'u'], [['c', 'r', 'e']]),
  (['c', 'e', 'v', 'n', 'i'], [['c', 'e', 'v'], ['c', 'e', 'i']]),
  (['c', 'f', 'a', 'r', 'i'], [['c', 'f', 'a']]),
  (['c', 'f', 'i', 'k', 'a'], [['f', 'i', 'k'], ['f', 'i', '\'', 'a']]),
  (['c', 'f', 'i', 'l', 'a'], [['c', 'f', 'i']]),
  (['c', 'f', 'i', 'n', 'e'], []),
  (['c', 'f', 'i', 'p', 'u'], [['f', 'i', '\'', 'u']]),
  (['c', 'i'], [['c', 'i', 'b']]),
  (['c', 'i', 'b', 'l', 'u'], [['b', 'l', 'u']]),
  (['c', 'i', 'c', 'n', 'a'], []),
  (['c', 'i', 'd', 'j', 'a'], [['d', 'j', 'a']]),
  (['c', 'i', 'd', 'n', 'i'], [['c', 'i', 'd']]),
  (['c', 'i', 'd', 'r', 'o'], [['d', 'r', 'o']]),
  (['c', 'i', 'f', 'n', 'u'], [['c', 'i', 'f']]),
  (['c', 'i', 'g', 'l', 'a'], [['c', 'i', 'g']]),
  (['c', 'i', 'k', 'n', 'a'], [['c', 'i', 'k']]),
  (['c', 'i', 'k', 'r', 'e'], []),
  (['c', 'i', 'k', 's', 'i'], [['c', 'k', 'i']]),
  (['c', 'i', 'l', 'c', 'e'], [['c', 'i', 'c']]),
  (['c', 'i', 'l', 'm', 'o'], [['c', 'i', 'm']]),
  (['c', 'i', 'l', 'r', 'e'], [['c', 'l', 'i']]),
  (['c', 'i', 'l', 't', 'a'], [['c', 'i', 'l']]),
  (['c', 'i', 'm', 'd', 'e'], []),
  (['c', 'i', 'm', 'n', 'i'], []),
  (['c', 'i', 'n', 'b', 'a'], []),
  (['c', 'i', 'n', 'd', 'u'], []),
  (['c', 'i', 'n', 'f', 'o'], []),
  (['c', 'i', 'n', 'j', 'e'], [['c', 'i', 'j']]),
  (['c', 'i', 'n', 'k', 'i'], []),
  (['c', 'i', 'n', 'l', 'a'], []),
  (['c', 'i', 'n', 'm', 'o'], [['c', 'n', 'i']]),
  (['c', 'i', 'n', 'r', 'i'], [['c', 'i', '\'', 'i']]),
  (['c', 'i', 'n', 's', 'e'], [['c', 'i', 'n']]),
  (['c', 'i', 'n', 't', 'a'], []),
  (['c', 'i', 'n', 'z', 'a'], []),
  (['c', 'i', 'p', 'n', 'i'], [['c', 'p', 'i']]),
  (['c', 'i', 'p', 'r', 'a'], [['c', 'i', 'p']]),
  (['c', 'i', 'r', 'k', 'o'], [['c', 'r', 'i']]),
  (['c', 'i', 'r', 'l', 'a'], []),
  (['c', 'i', 's', 'k', 'a'], [['c', 'i', '\'', 'a']]),
  (['c', 'i', 's', 'm', 'a'], []),
  (['c', 'i', 's', 't', 'e'], [['c', 'i', '\'', 'e']]),
  (['c', 'i', 't', 'k', 'a'], [['c', 't', 'i']]),
  (['c', 'i', 't', 'n', 'o'], [['c', 'i', 't'], ['c', 'i', '\'', 'o']]),
  (['c', 'i', 't', 'r', 'i'], [['c', 'i', 'r']]),
  (['c', 'i', 't', 's', 'i'], []),
  (['c', 'i', 'v', 'l', 'a'], [['c', 'i', 'v']]),
  (['c', 'i', 'z', 'r', 'a'], [['c', 'i', 'z']]),
  (['c', 'k', 'a', 'b', 'u'], []),
  (['c', 'k', 'a', 'f', 'i'], [['k', 'a', 'f']]),
  (['c', 'k', 'a', 'j', 'i'], [['k', 'a', 'i']]),
  (['c', 'k', 'a', 'n', 'a'], [['c', 'k', 'a']]),
  (['c', 'k', 'a', 'p', 'e'], [['c', 'a', 'p']]),
  (['c', 'k', 'a', 's', 'u'], [['c', 'a', 's']]),
  (['c', 'k', 'e', 'j', 'i'], [['k', 'e', 'j'], ['c', 'k', 'e']]),
  (['c', 'k', 'i', 'k', 'u'], [['k', 'i', 'k']]),
  (['c', 'k', 'i', 'l', 'u'], [['c', 'i', '\'', 'u']]),
  (['c', 'k', 'i', 'n', 'i'], [['k', 'i', '\'', 'i']]),
  (['c', 'k', 'i', 'r', 'e'], [['k', 'i', 'r']]),
  (['c', 'k', 'u', 'l', 'e'], [['k', 'u', 'l'], ['c', 'u', '\'', 'e']]),
  (['c', 'k', 'u', 'n', 'u'], [['k', 'u', '\'', 'u']]),
  (['c', 'l', 'a', 'd', 'u'], [['l', 'a', 'u']]),
  (['c', 'l', 'a', 'n', 'i'], [['c', 'l', 'a']]),
  (['c', 'l', 'a', 'x', 'u'], [['c', 'a', 'u']]),
  (['c', 'l', 'i', 'k', 'a'], []),
  (['c', 'l', 'i', 'r', 'a'], [['l', 'i', 'r']]),
  (['c', 'l', 'i', 't', 'e'], [['l', 'i', 't']]),
  (['c', 'l', 'i', 'v', 'a'], [['l', 'i', 'v'], ['l', 'i', '\'', 'a']])]

/-- `jvocuhadju.c:104-652`: each entry is `gismu[i]` with `rafsi[start_indices[i]]`, ...,
`rafsi[start_indices[i]+n_rafsi[i]-1]`, entries 200-299. -/
def wordTable2 : List (Word × List Word) := [
  (['c', 'l', 'u', 'p', 'a'], [['c', 'u', 'p']]),
  (['c', 'm', 'a', 'c', 'i'], []),
  (['c', 'm', 'a', 'l', 'u'], [['c', 'm', 'a']]),
  (['c', 'm', 'a', 'n', 'a'], [['m', 'a', '\'', 'a']]),
  (['c', 'm', 'a', 'v', 'o'], [['m', 'a', '\'', 'o']]),
  (['c', 'm', 'e', 'n', 'e'], [['c', 'm', 'e'], ['m', 'e', '\'', 'e']]),
  (['c', 'm', 'i', 'l', 'a'], [['m', 'i', '\'', 'a']]),
  (['c', 'm', 'i', 'm', 'a'], [['m', 'i', 'm'], ['c', 'm', 'i']]),
  (['c', 'm', 'o', 'n', 'i'], [['c', 'm', 'o'], ['c', 'o', '\'', 'i']]),
  (['c', 'n', 'a', 'n', 'o'], [['n', 'a', '\'', 'o']]),
  (['c', 'n', 'e', 'b', 'o'], [['n', 'e', 'b'], ['n', 'e', '\'', 'o']]),
  (['c', 'n', 'e', 'm', 'u'], [['n', 'e', 'm'], ['n', 'e', '\'', 'u']]),
  (['c', 'n', 'i', 'c', 'i'], [['n', 'i', 'c']]),
  (['c', 'n', 'i', 'n', 'o'], [['n', 'i', 'n'], ['n', 'i', '\'', 'o']]),
  (['c', 'n', 'i', 's', 'a'], [['n', 'i', 's']]),
  (['c', 'n', 'i', 't', 'a'], [['n', 'i', 't'], ['n', 'i', '\'', 'a']]),
  (['c', 'o'], [['c', 'o', 'l']]),
  (['c', 'o', '\'', 'a'], [['c', 'o', '\'', 'a']]),
  (['c', 'o', '\'', 'e'], [['c', 'o', 'm'], ['c', 'o', '\'', 'e']]),
  (['c', 'o', '\'', 'u'], [['c', 'o', '\'', 'u']]),
  (['c', 'o', 'k', 'c', 'u'], [['c', 'k', 'o']]),
  (['c', 'o', 'n', 'd', 'i'], [['c', 'o', 'n'], ['c', 'n', 'o'], ['c', 'o', 'i']]),
  (['c', 'o', 'r', 't', 'u'], [['c', 'o', 'r'], ['c', 'r', 'o']]),
  (['c', 'p', 'a', 'c', 'u'], [['c', 'p', 'a']]),
  (['c', 'p', 'a', 'n', 'a'], []),
  (['c', 'p', 'a', 'r', 'e'], [['p', 'a', 'r']]),
  (['c', 'p', 'e', 'd', 'u'], [['c', 'p', 'e']]),
  (['c', 'p', 'i', 'n', 'a'], []),
  (['c', 'r', 'a', 'd', 'i'], []),
  (['c', 'r', 'a', 'n', 'e'], [['c', 'r', 'a']]),
  (['c', 'r', 'e', 'k', 'a'], [['c', 'e', 'k']]),
  (['c', 'r', 'e', 'p', 'u'], [['r', 'e', 'p']]),
  (['c', 'r', 'i', 'b', 'e'], [['r', 'i', 'b']]),
  (['c', 'r', 'i', 'd', 'a'], [['r', 'i', 'd']]),
  (['c', 'r', 'i', 'n', 'o'], [['r', 'i', '\'', 'o']]),
  (['c', 'r', 'i', 'p', 'u'], [['r', 'i', 'p']]),
  (['c', 'r', 'i', 's', 'a'], [['c', 'i', 's']]),
  (['c', 'r', 'i', 't', 'u'], []),
  (['c', 't', 'a', 'r', 'u'], []),
  (['c', 't', 'e', 'b', 'i'], [['t', 'e', 'b']]),
  (['c', 't', 'e', 'k', 'i'], [['t', 'e', 'k'], ['c', 'e', '\'', 'i']]),
  (['c', 't', 'i', 'l', 'e'], []),
  (['c', 't', 'i', 'n', 'o'], [['t', 'i', '\'', 'o']]),
  (['c', 't', 'u', 'c', 'a'], [['c', 't', 'u']]),
  (['c', 'u', 'k', 'l', 'a'], [['c', 'u', 'k']]),
  (['c', 'u', 'k', 't', 'a'], [['c', 'k', 'u']]),
  (['c', 'u', 'l', 'n', 'o'], [['c', 'l', 'u']]),
  (['c', 'u', 'm', 'k', 'i'], [['c', 'u', 'm'], ['c', 'u', '\'', 'i']]),
  (['c', 'u', 'm', 'l', 'a'], [['c', 'u', 'l']]),
  (['c', 'u', 'n', 'm', 'i'], []),
  (['c', 'u', 'n', 's', 'o'], [['c', 'u', 'n'], ['c', 'u', '\'', 'o']]),
  (['c', 'u', 'n', 't', 'u'], [['c', 'u', '\'', 'u']]),
  (['c', 'u', 'p', 'r', 'a'], [['p', 'r', 'a']]),
  (['c', 'u', 'r', 'm', 'i'], [['c', 'r', 'u']]),
  (['c', 'u', 'r', 'n', 'u'], [['c', 'u', 'r']]),
  (['c', 'u', 'r', 'v', 'e'], [['c', 'u', 'v']]),
  (['c', 'u', 's', 'k', 'u'], [['c', 'u', 's'], ['s', 'k', 'u']]),
  (['c', 'u', 't', 'c', 'i'], [['c', 'u', 'c']]),
  (['c', 'u', 't', 'n', 'e'], [['c', 'u', 't']]),
  (['c', 'u', 'x', 'n', 'a'], [['c', 'u', 'x'], ['c', 'u', '\'', 'a']]),
  (['d', 'a'], [['d', 'a', 'v'], ['d', 'z', 'a']]),
  (['d', 'a', '\'', 'a'], [['d', 'a', 'z']]),
  (['d', 'a', 'c', 'r', 'u'], [['d', 'a', 'c']]),
  (['d', 'a', 'c', 't', 'i'], [['d', 'a', 'i']]),
  (['d', 'a', 'd', 'j', 'o'], [['d', 'a', 'j']]),
  (['d', 'a', 'k', 'f', 'u'], [['d', 'a', 'k']]),
  (['d', 'a', 'k', 'l', 'i'], []),
  (['d', 'a', 'm', 'b', 'a'], [['d', 'a', 'b'], ['d', 'a', '\'', 'a']]),
  (['d', 'a', 'm', 'r', 'i'], []),
  (['d', 'a', 'n', 'd', 'u'], [['d', 'a', 'd']]),
  (['d', 'a', 'n', 'f', 'u'], [['d', 'a', 'f']]),
  (['d', 'a', 'n', 'l', 'u'], [['d', 'a', 'l'], ['d', 'a', '\'', 'u']]),
  (['d', 'a', 'n', 'm', 'o'], [['d', 'a', 'm']]),
  (['d', 'a', 'n', 'r', 'e'], [['d', 'a', '\'', 'e']]),
  (['d', 'a', 'n', 's', 'u'], []),
  (['d', 'a', 'n', 't', 'i'], [['d', 'a', 'n']]),
  (['d', 'a', 'p', 'l', 'u'], [['p', 'l', 'u']]),
  (['d', 'a', 'p', 'm', 'a'], [['d', 'a', 'p']]),
  (['d', 'a', 'r', 'g', 'u'], [['d', 'a', 'g']]),
  (['d', 'a', 'r', 'l', 'u'], [['d', 'a', 'u']]),
  (['d', 'a', 'r', 'n', 'o'], [['d', 'a', 'r'], ['d', 'a', '\'', 'o']]),
  (['d', 'a', 'r', 's', 'i'], []),
  (['d', 'a', 'r', 'x', 'i'], [['d', 'a', 'x'], ['d', 'a', '\'', 'i']]),
  (['d', 'a', 's', 'k', 'i'], []),
  (['d', 'a', 's', 'n', 'i'], [['d', 'a', 's']]),
  (['d', 'a', 's', 'p', 'o'], [['s', 'p', 'o']]),
  (['d', 'a', 's', 'r', 'i'], [['s', 'r', 'i']]),
  (['d', 'a', 't', 'k', 'a'], []),
  (['d', 'a', 't', 'n', 'i'], []),
  (['d', 'e', 'c', 't', 'i'], [['d', 'e', 'c']]),
  (['d', 'e', 'g', 'j', 'i'], [['d', 'e', 'g']]),
  (['d', 'e', 'j', 'n', 'i'], [['d', 'e', 'j']]),
  (['d', 'e', 'k', 'p', 'u'], []),
  (['d', 'e', 'k', 't', 'o'], [['d', 'e', 'k']]),
  (['d', 'e', 'l', 'n', 'o'], [['d', 'e', 'l'], ['d', 'e', '\'', 'o']]),
  (['d', 'e', 'm', 'b', 'i'], [['d', 'e', 'b']]),
  (['d', 'e', 'n', 'c', 'i'], [['d', 'e', 'n'], ['d', 'e', '\'', 'i']]),
  (['d', 'e', 'n', 'm', 'i'], [['d', 'e', 'm']]),
  (['d', 'e', 'n', 'p', 'a'], [['d', 'e', 'p'], ['d', 'e', '\'', 'a']]),
  (['d', 'e', 'r', 't', 'u'], [['d', 'e', 'r'], ['d', 'e', '\'', 'u']])]

/-- `jvocuhadju.c:104-652`: each entry is `gismu[i]` with `rafsi[start_indices[i]]`, ...,
`rafsi[start_indices[i]+n_rafsi[i]-1]`, entries 300-399. -/
def wordTable3 : List (Word × List Word) := [
  (['d', 'e', 'r', 'x', 'i'], [['d', 'r', 'e']]),
  (['d', 'e', 's', 'k', 'u'], [['d', 'e', 's']]),
  (['d', 'e', 't', 'r', 'i'], [['d', 'e', 't']]),
  (['d', 'i', 'c', 'r', 'a'], [['d', 'i', 'r']]),
  (['d', 'i', 'k', 'c', 'a'], [['d', 'i', 'c']]),
  (['d', 'i', 'k', 'l', 'o'], [['k', 'l', 'o']]),
  (['d', 'i', 'k', 'n', 'i'], [['d', 'i', 'k']]),
  (['d', 'i', 'l', 'c', 'u'], []),
  (['d', 'i', 'l', 'n', 'u'], [['d', 'i', 'l']]),
  (['d', 'i', 'm', 'n', 'a'], [['d', 'i', 'm']]),
  (['d', 'i', 'n', 'j', 'u'], [['d', 'i', 'j'], ['d', 'i', '\'', 'u']]),
  (['d', 'i', 'n', 'k', 'o'], [['d', 'i', '\'', 'o']]),
  (['d', 'i', 'r', 'b', 'a'], [['d', 'i', 'b']]),
  (['d', 'i', 'r', 'c', 'e'], [['d', 'i', '\'', 'e']]),
  (['d', 'i', 'r', 'g', 'o'], [['d', 'i', 'g']]),
  (['d', 'i', 'z', 'l', 'o'], [['d', 'i', 'z'], ['d', 'z', 'i']]),
  (['d', 'j', 'a', 'c', 'u'], [['j', 'a', 'c'], ['j', 'a', 'u']]),
  (['d', 'j', 'e', 'd', 'i'], [['d', 'j', 'e'], ['d', 'e', 'i']]),
  (['d', 'j', 'i', 'c', 'a'], [['d', 'j', 'i']]),
  (['d', 'j', 'i', 'n', 'e'], [['j', 'i', 'n']]),
  (['d', 'j', 'u', 'n', 'o'], [['j', 'u', 'n'], ['j', 'u', '\'', 'o']]),
  (['d', 'o'], [['d', 'o', 'n'], ['d', 'o', 'i']]),
  (['d', 'o', 'n', 'r', 'i'], [['d', 'o', 'r'], ['d', 'o', '\'', 'i']]),
  (['d', 'o', 't', 'c', 'o'], [['d', 'o', 't'], ['d', 'o', '\'', 'o']]),
  (['d', 'r', 'a', 'c', 'i'], []),
  (['d', 'r', 'a', 'n', 'i'], [['d', 'r', 'a']]),
  (['d', 'r', 'a', 't', 'a'], [['d', 'a', 't']]),
  (['d', 'r', 'u', 'd', 'i'], [['r', 'u', 'd'], ['d', 'r', 'u']]),
  (['d', 'u'], [['d', 'u', 'b'], ['d', 'u', '\'', 'o']]),
  (['d', 'u', '\'', 'u'], [['d', 'u', 'm']]),
  (['d', 'u', 'g', 'r', 'i'], [['d', 'u', 'g']]),
  (['d', 'u', 'k', 's', 'e'], [['d', 'u', 's'], ['d', 'u', '\'', 'e']]),
  (['d', 'u', 'k', 't', 'i'], [['d', 'u', 't']]),
  (['d', 'u', 'n', 'd', 'a'], [['d', 'u', 'd'], ['d', 'u', '\'', 'a']]),
  (['d', 'u', 'n', 'j', 'a'], [['d', 'u', 'j']]),
  (['d', 'u', 'n', 'k', 'u'], [['d', 'u', 'k'], ['d', 'u', '\'', 'u']]),
  (['d', 'u', 'n', 'l', 'i'], [['d', 'u', 'n'], ['d', 'u', '\'', 'i']]),
  (['d', 'u', 'n', 'r', 'a'], [['d', 'u', 'r']]),
  (['d', 'z', 'e', 'n', 'a'], [['d', 'z', 'e']]),
  (['d', 'z', 'i', 'p', 'o'], [['z', 'i', 'p'], ['z', 'i', '\'', 'o']]),
  (['f', 'a', 'c', 'k', 'i'], [['f', 'a', 'k'], ['f', 'a', '\'', 'i']]),
  (['f', 'a', 'd', 'n', 'i'], [['f', 'a', 'd']]),
  (['f', 'a', 'g', 'r', 'i'], [['f', 'a', 'g']]),
  (['f', 'a', 'l', 'n', 'u'], [['f', 'a', 'n']]),
  (['f', 'a', 'm', 't', 'i'], []),
  (['f', 'a', 'n', 'c', 'u'], []),
  (['f', 'a', 'n', 'g', 'e'], []),
  (['f', 'a', 'n', 'm', 'o'], [['f', 'a', 'm'], ['f', 'a', '\'', 'o']]),
  (['f', 'a', 'n', 'r', 'i'], []),
  (['f', 'a', 'n', 't', 'a'], []),
  (['f', 'a', 'n', 'v', 'a'], []),
  (['f', 'a', 'n', 'z', 'a'], [['f', 'a', 'z']]),
  (['f', 'a', 'p', 'r', 'o'], [['f', 'a', 'p'], ['p', 'r', 'o']]),
  (['f', 'a', 'r', 'l', 'u'], [['f', 'a', 'l'], ['f', 'a', '\'', 'u']]),
  (['f', 'a', 'r', 'n', 'a'], [['f', 'a', 'r'], ['f', 'a', '\'', 'a']]),
  (['f', 'a', 'r', 'v', 'i'], [['f', 'a', 'v']]),
  (['f', 'a', 's', 'n', 'u'], [['f', 'a', 'u']]),
  (['f', 'a', 't', 'c', 'i'], [['f', 'a', 'c']]),
  (['f', 'a', 't', 'n', 'e'], [['f', 'a', 't'], ['f', 'a', '\'', 'e']]),
  (['f', 'a', 't', 'r', 'i'], [['f', 'a', 'i']]),
  (['f', 'e', 'b', 'v', 'i'], [['f', 'e', 'b']]),
  (['f', 'e', 'm', 't', 'i'], [['f', 'e', 'm']]),
  (['f', 'e', 'n', 'd', 'i'], [['f', 'e', 'd']]),
  (['f', 'e', 'n', 'g', 'u'], [['f', 'e', 'g'], ['f', 'e', '\'', 'u']]),
  (['f', 'e', 'n', 'k', 'i'], [['f', 'e', 'k']]),
  (['f', 'e', 'n', 'r', 'a'], [['f', 'e', 'r'], ['f', 'e', '\'', 'a']]),
  (['f', 'e', 'n', 's', 'o'], [['f', 'e', 'n'], ['f', 'e', '\'', 'o']]),
  (['f', 'e', 'p', 'n', 'i'], [['f', 'e', 'p'], ['f', 'e', 'i']]),
  (['f', 'e', 'p', 'r', 'i'], []),
  (['f', 'e', 'r', 't', 'i'], [['f', 'r', 'e']]),
  (['f', 'e', 's', 't', 'i'], [['f', 'e', 's']]),
  (['f', 'e', 't', 's', 'i'], [['f', 'e', 't'], ['f', 'e', '\'', 'i']]),
  (['f', 'i', 'g', 'r', 'e'], [['f', 'i', 'g']]),
  (['f', 'i', 'l', 's', 'o'], [['f', 'i', 's']]),
  (['f', 'i', 'n', 'p', 'e'], [['f', 'i', 'p'], ['f', 'i', '\'', 'e']]),
  (['f', 'i', 'n', 't', 'i'], [['f', 'i', 'n'], ['f', 'i', '\'', 'i']]),
  (['f', 'l', 'a', 'l', 'u'], [['f', 'l', 'a']]),
  (['f', 'l', 'a', 'n', 'i'], []),
  (['f', 'l', 'e', 'c', 'u'], [['f', 'l', 'e']]),
  (['f', 'l', 'i', 'b', 'a'], [['f', 'l', 'i']]),
  (['f', 'l', 'i', 'r', 'a'], [['f', 'i', 'r']]),
  (['f', 'o', '\'', 'a'], [['f', 'o', '\'', 'a']]),
  (['f', 'o', '\'', 'e'], [['f', 'o', '\'', 'e']]),
  (['f', 'o', '\'', 'i'], [['f', 'o', '\'', 'i']]),
  (['f', 'o', 'l', 'd', 'i'], [['f', 'l', 'o'], ['f', 'o', 'i']]),
  (['f', 'o', 'n', 'm', 'o'], [['f', 'o', 'm'], ['f', 'o', '\'', 'o']]),
  (['f', 'o', 'n', 'x', 'a'], [['f', 'o', 'n']]),
  (['f', 'o', 'r', 'c', 'a'], [['f', 'r', 'o']]),
  (['f', 'r', 'a', 's', 'o'], [['f', 'a', 's']]),
  (['f', 'r', 'a', 't', 'i'], [['f', 'r', 'a']]),
  (['f', 'r', 'a', 'x', 'u'], [['f', 'a', 'x']]),
  (['f', 'r', 'i', 'c', 'a'], [['f', 'i', 'c']]),
  (['f', 'r', 'i', 'k', 'o'], [['f', 'i', '\'', 'o']]),
  (['f', 'r', 'i', 'l', 'i'], [['f', 'i', 'l']]),
  (['f', 'r', 'i', 'n', 'u'], []),
  (['f', 'r', 'i', 't', 'i'], [['f', 'i', 't']]),
  (['f', 'r', 'u', 'm', 'u'], [['f', 'r', 'u']]),
  (['f', 'u', 'k', 'p', 'i'], [['f', 'u', 'k'], ['f', 'u', '\'', 'i']]),
  (['f', 'u', 'l', 't', 'a'], [['f', 'u', 'l'], ['f', 'l', 'u']]),
  (['f', 'u', 'n', 'c', 'a'], [['f', 'u', 'n'], ['f', 'u', '\'', 'a']])]

/-- `jvocuhadju.c:104-652`: each entry is `gismu[i]` with `rafsi[start_indices[i]]`, ...,
`rafsi[start_indices[i]+n_rafsi[i]-1]`, entries 400-499. -/
def wordTable4 : List (Word × List Word) := [
  (['f', 'u', 's', 'r', 'a'], [['f', 'u', 'r']]),
  (['f', 'u', 'z', 'm', 'e'], [['f', 'u', 'z'], ['f', 'u', '\'', 'e']]),
  (['g', 'a', 'c', 'r', 'i'], [['g', 'a', 'i']]),
  (['g', 'a', 'd', 'r', 'i'], [['g', 'a', 'd']]),
  (['g', 'a', 'l', 'f', 'i'], [['g', 'a', 'f'], ['g', 'a', '\'', 'i']]),
  (['g', 'a', 'l', 't', 'u'], [['g', 'a', 'l'], ['g', 'a', '\'', 'u']]),
  (['g', 'a', 'l', 'x', 'e'], []),
  (['g', 'a', 'n', 'l', 'o'], [['g', 'a', '\'', 'o']]),
  (['g', 'a', 'n', 'r', 'a'], [['g', 'a', 'n']]),
  (['g', 'a', 'n', 's', 'e'], [['g', 'a', 's'], ['g', 'a', '\'', 'e']]),
  (['g', 'a', 'n', 't', 'i'], []),
  (['g', 'a', 'n', 'x', 'o'], [['g', 'a', 'x']]),
  (['g', 'a', 'n', 'z', 'u'], [['g', 'a', 'z']]),
  (['g', 'a', 'p', 'c', 'i'], [['g', 'a', 'c']]),
  (['g', 'a', 'p', 'r', 'u'], [['g', 'a', 'p']]),
  (['g', 'a', 'r', 'n', 'a'], [['g', 'a', 'r']]),
  (['g', 'a', 's', 'n', 'u'], [['g', 'a', 'u']]),
  (['g', 'a', 's', 't', 'a'], [['g', 'a', 't']]),
  (['g', 'e', 'n', 'j', 'a'], [['g', 'e', 'j']]),
  (['g', 'e', 'n', 't', 'o'], [['g', 'e', 't'], ['g', 'e', '\'', 'o']]),
  (['g', 'e', 'n', 'x', 'u'], [['g', 'e', 'x']]),
  (['g', 'e', 'r', 'k', 'u'], [['g', 'e', 'r'], ['g', 'e', '\'', 'u']]),
  (['g', 'e', 'r', 'n', 'a'], [['g', 'e', 'n'], ['g', 'e', '\'', 'a']]),
  (['g', 'i', 'd', 'v', 'a'], [['g', 'i', 'd'], ['g', 'i', '\'', 'a']]),
  (['g', 'i', 'g', 'd', 'o'], [['g', 'i', 'g'], ['g', 'i', '\'', 'o']]),
  (['g', 'i', 'n', 'k', 'a'], [['g', 'i', 'k']]),
  (['g', 'i', 'r', 'z', 'u'], [['g', 'i', 'r'], ['g', 'r', 'i']]),
  (['g', 'i', 's', 'm', 'u'], [['g', 'i', 'm'], ['g', 'i', '\'', 'u']]),
  (['g', 'l', 'a', 'r', 'e'], [['g', 'l', 'a']]),
  (['g', 'l', 'e', 'k', 'i'], [['g', 'e', 'k'], ['g', 'e', 'i']]),
  (['g', 'l', 'e', 't', 'u'], [['l', 'e', 't'], ['g', 'l', 'e']]),
  (['g', 'l', 'i', 'c', 'o'], [['g', 'i', 'c'], ['g', 'l', 'i']]),
  (['g', 'l', 'u', 't', 'a'], [['g', 'l', 'u']]),
  (['g', 'o', 'c', 't', 'i'], [['g', 'o', 'c']]),
  (['g', 'o', 't', 'r', 'o'], [['g', 'o', 't']]),
  (['g', 'r', 'a', 'd', 'u'], [['r', 'a', 'u']]),
  (['g', 'r', 'a', 'k', 'e'], [['g', 'r', 'a']]),
  (['g', 'r', 'a', 'n', 'a'], [['g', 'a', '\'', 'a']]),
  (['g', 'r', 'a', 's', 'u'], [['r', 'a', 's']]),
  (['g', 'r', 'e', 'k', 'u'], [['r', 'e', 'k']]),
  (['g', 'r', 'u', 's', 'i'], [['r', 'u', 's']]),
  (['g', 'r', 'u', 't', 'e'], [['r', 'u', 't']]),
  (['g', 'u', 'b', 'n', 'i'], [['g', 'u', 'b']]),
  (['g', 'u', 'g', 'd', 'e'], [['g', 'u', 'g'], ['g', 'u', '\'', 'e']]),
  (['g', 'u', 'n', 'd', 'i'], [['g', 'u', 'd']]),
  (['g', 'u', 'n', 'k', 'a'], [['g', 'u', 'n'], ['g', 'u', '\'', 'a']]),
  (['g', 'u', 'n', 'm', 'a'], [['g', 'u', 'm']]),
  (['g', 'u', 'n', 'r', 'o'], [['g', 'u', 'r'], ['g', 'u', '\'', 'o']]),
  (['g', 'u', 'n', 's', 'e'], []),
  (['g', 'u', 'n', 't', 'a'], [['g', 'u', 't']]),
  (['g', 'u', 'r', 'n', 'i'], [['g', 'r', 'u']]),
  (['g', 'u', 's', 'k', 'a'], [['g', 'u', 'k']]),
  (['g', 'u', 's', 'n', 'i'], [['g', 'u', 's'], ['g', 'u', '\'', 'i']]),
  (['g', 'u', 's', 't', 'a'], []),
  (['g', 'u', 't', 'c', 'i'], [['g', 'u', 'c']]),
  (['g', 'u', 't', 'r', 'a'], []),
  (['g', 'u', 'z', 'm', 'e'], [['g', 'u', 'z'], ['z', 'm', 'e']]),
  (['j', 'a'], [['j', 'a', 'v']]),
  (['j', 'a', 'b', 'r', 'e'], []),
  (['j', 'a', 'd', 'n', 'i'], [['j', 'a', 'd'], ['j', 'a', '\'', 'i']]),
  (['j', 'a', 'k', 'n', 'e'], []),
  (['j', 'a', 'l', 'g', 'e'], [['j', 'a', 'g'], ['j', 'a', '\'', 'e']]),
  (['j', 'a', 'l', 'n', 'a'], []),
  (['j', 'a', 'l', 'r', 'a'], []),
  (['j', 'a', 'm', 'f', 'u'], [['j', 'a', 'f'], ['j', 'm', 'a']]),
  (['j', 'a', 'm', 'n', 'a'], [['j', 'a', 'm']]),
  (['j', 'a', 'n', 'b', 'e'], [['j', 'a', 'b']]),
  (['j', 'a', 'n', 'c', 'o'], [['j', 'a', 'n']]),
  (['j', 'a', 'n', 'l', 'i'], [['j', 'a', 'l']]),
  (['j', 'a', 'n', 's', 'u'], [['j', 'a', 's']]),
  (['j', 'a', 'n', 't', 'a'], [['j', 'a', 't']]),
  (['j', 'a', 'r', 'b', 'u'], []),
  (['j', 'a', 'r', 'c', 'o'], [['j', 'a', '\'', 'o']]),
  (['j', 'a', 'r', 'k', 'i'], [['j', 'a', 'k']]),
  (['j', 'a', 's', 'p', 'u'], [['j', 'a', 'p']]),
  (['j', 'a', 't', 'n', 'a'], [['j', 'a', '\'', 'a']]),
  (['j', 'a', 'v', 'n', 'i'], [['j', 'v', 'a']]),
  (['j', 'b', 'a', 'm', 'a'], [['b', 'a', 'm']]),
  (['j', 'b', 'a', 'r', 'i'], [['j', 'b', 'a']]),
  (['j', 'b', 'e', 'n', 'a'], [['j', 'b', 'e']]),
  (['j', 'b', 'e', 'r', 'a'], [['j', 'e', 'r']]),
  (['j', 'b', 'i', 'n', 'i'], [['b', 'i', 'n'], ['b', 'i', '\'', 'i']]),
  (['j', 'd', 'a', 'r', 'i'], [['j', 'a', 'r']]),
  (['j', 'd', 'i', 'c', 'e'], [['j', 'd', 'i']]),
  (['j', 'd', 'i', 'k', 'a'], []),
  (['j', 'd', 'i', 'm', 'a'], [['d', 'i', '\'', 'a']]),
  (['j', 'd', 'i', 'n', 'i'], [['d', 'i', 'n'], ['d', 'i', '\'', 'i']]),
  (['j', 'd', 'u', 'l', 'i'], [['d', 'u', 'l'], ['j', 'd', 'u']]),
  (['j', 'e'], [['j', 'e', 'v'], ['j', 'v', 'e']]),
  (['j', 'e', 'c', 't', 'a'], [['j', 'e', 'c'], ['j', 'e', '\'', 'a']]),
  (['j', 'e', 'f', 't', 'u'], [['j', 'e', 'f']]),
  (['j', 'e', 'g', 'v', 'o'], [['j', 'e', 'g'], ['j', 'e', '\'', 'o']]),
  (['j', 'e', 'i'], [['j', 'e', 'z']]),
  (['j', 'e', 'l', 'c', 'a'], [['j', 'e', 'l']]),
  (['j', 'e', 'm', 'n', 'a'], [['j', 'm', 'e']]),
  (['j', 'e', 'n', 'c', 'a'], [['j', 'e', 'n']]),
  (['j', 'e', 'n', 'd', 'u'], [['j', 'e', 'd']]),
  (['j', 'e', 'n', 'm', 'i'], [['j', 'e', 'm'], ['j', 'e', 'i']]),
  (['j', 'e', 'r', 'n', 'a'], []),
  (['j', 'e', 'r', 's', 'i'], [['j', 'e', '\'', 'i']])]

/-- `jvocuhadju.c:104-652`: each entry is `gismu[i]` with `rafsi[start_indices[i]]`, ...,
`rafsi[start_indices[i]+n_rafsi[i]-1]`, entries 500-599. -/
def wordTable5 : List (Word × List Word) := [
  (['j', 'e', 'r', 'x', 'o'], [['j', 'e', 'x']]),
  (['j', 'e', 's', 'n', 'i'], [['j', 'e', 's']]),
  (['j', 'e', 't', 'c', 'e'], [['j', 'e', '\'', 'e']]),
  (['j', 'e', 't', 'n', 'u'], [['j', 'e', 't'], ['j', 'e', '\'', 'u']]),
  (['j', 'g', 'a', 'l', 'u'], [['j', 'a', '\'', 'u']]),
  (['j', 'g', 'a', 'n', 'u'], [['j', 'g', 'a']]),
  (['j', 'g', 'a', 'r', 'i'], [['j', 'a', 'i']]),
  (['j', 'g', 'e', 'n', 'a'], [['j', 'g', 'e']]),
  (['j', 'g', 'i', 'n', 'a'], [['g', 'i', 'n']]),
  (['j', 'g', 'i', 'r', 'a'], [['j', 'g', 'i']]),
  (['j', 'g', 'i', 't', 'a'], [['g', 'i', 't']]),
  (['j', 'i', 'b', 'n', 'i'], [['j', 'b', 'i']]),
  (['j', 'i', 'b', 'r', 'i'], [['j', 'i', 'b']]),
  (['j', 'i', 'c', 'l', 'a'], []),
  (['j', 'i', 'c', 'm', 'u'], [['c', 'm', 'u']]),
  (['j', 'i', 'j', 'n', 'u'], [['j', 'i', 'j']]),
  (['j', 'i', 'k', 'c', 'a'], [['j', 'i', 'k']]),
  (['j', 'i', 'k', 'r', 'u'], []),
  (['j', 'i', 'l', 'k', 'a'], [['j', 'i', 'l']]),
  (['j', 'i', 'l', 'r', 'a'], []),
  (['j', 'i', 'm', 'c', 'a'], [['j', 'i', 'c']]),
  (['j', 'i', 'm', 'p', 'e'], [['j', 'm', 'i']]),
  (['j', 'i', 'm', 't', 'e'], [['j', 'i', 't']]),
  (['j', 'i', 'n', 'c', 'i'], []),
  (['j', 'i', 'n', 'g', 'a'], [['j', 'i', 'g'], ['j', 'i', '\'', 'a']]),
  (['j', 'i', 'n', 'k', 'u'], []),
  (['j', 'i', 'n', 'm', 'e'], [['j', 'i', 'm']]),
  (['j', 'i', 'n', 'r', 'u'], [['j', 'i', 'r']]),
  (['j', 'i', 'n', 's', 'a'], [['j', 'i', 's']]),
  (['j', 'i', 'n', 't', 'o'], []),
  (['j', 'i', 'n', 'v', 'i'], [['j', 'i', 'v'], ['j', 'i', '\'', 'i']]),
  (['j', 'i', 'n', 'z', 'i'], [['j', 'i', 'z']]),
  (['j', 'i', 'p', 'c', 'i'], []),
  (['j', 'i', 'p', 'n', 'o'], [['j', 'i', 'p'], ['j', 'i', '\'', 'o']]),
  (['j', 'i', 'r', 'n', 'a'], []),
  (['j', 'i', 's', 'r', 'a'], []),
  (['j', 'i', 't', 'f', 'a'], [['j', 'i', 'f']]),
  (['j', 'i', 't', 'r', 'o'], [['t', 'r', 'o']]),
  (['j', 'i', 'v', 'b', 'u'], []),
  (['j', 'i', 'v', 'n', 'a'], [['j', 'v', 'i']]),
  (['j', 'm', 'a', 'j', 'i'], [['j', 'a', 'j']]),
  (['j', 'm', 'i', 'f', 'a'], []),
  (['j', 'm', 'i', 'n', 'a'], [['m', 'i', 'n']]),
  (['j', 'm', 'i', 'v', 'e'], [['m', 'i', 'v'], ['j', 'i', '\'', 'e']]),
  (['j', 'o'], [['j', 'o', 'v']]),
  (['j', 'o', '\'', 'e'], [['j', 'o', 'm']]),
  (['j', 'o', '\'', 'u'], [['j', 'o', '\'', 'u']]),
  (['j', 'o', 'i'], [['j', 'o', 'l'], ['j', 'o', 'i']]),
  (['j', 'o', 'r', 'd', 'o'], [['j', 'o', 'r'], ['j', 'o', '\'', 'o']]),
  (['j', 'o', 'r', 'n', 'e'], [['j', 'o', 'n'], ['j', 'o', '\'', 'e']]),
  (['j', 'u'], [['j', 'u', 'v']]),
  (['j', 'u', 'b', 'm', 'e'], [['j', 'u', 'b'], ['j', 'b', 'u']]),
  (['j', 'u', 'd', 'r', 'i'], []),
  (['j', 'u', 'f', 'r', 'a'], [['j', 'u', 'f'], ['j', 'u', '\'', 'a']]),
  (['j', 'u', 'k', 'n', 'i'], [['j', 'u', 'k']]),
  (['j', 'u', 'k', 'p', 'a'], [['j', 'u', 'p']]),
  (['j', 'u', 'l', 'n', 'e'], [['j', 'u', '\'', 'e']]),
  (['j', 'u', 'n', 'd', 'i'], [['j', 'u', 'd'], ['j', 'u', '\'', 'i']]),
  (['j', 'u', 'n', 'g', 'o'], [['j', 'u', 'g']]),
  (['j', 'u', 'n', 'l', 'a'], [['j', 'u', 'l']]),
  (['j', 'u', 'n', 'r', 'i'], [['j', 'u', 'r']]),
  (['j', 'u', 'n', 't', 'a'], []),
  (['j', 'u', 'r', 'm', 'e'], [['j', 'u', 'm']]),
  (['j', 'u', 'r', 's', 'a'], [['j', 'u', 's']]),
  (['j', 'u', 't', 's', 'i'], [['j', 'u', 't']]),
  (['j', 'u', 'x', 'r', 'e'], [['j', 'u', 'x']]),
  (['j', 'v', 'i', 'n', 'u'], [['v', 'i', 'n'], ['j', 'i', '\'', 'u']]),
  (['k', 'a'], [['k', 'a', 'm']]),
  (['k', 'a', 'b', 'r', 'i'], []),
  (['k', 'a', 'c', 'm', 'a'], []),
  (['k', 'a', 'd', 'n', 'o'], []),
  (['k', 'a', 'f', 'k', 'e'], []),
  (['k', 'a', 'g', 'n', 'i'], [['k', 'a', 'g']]),
  (['k', 'a', 'j', 'd', 'e'], [['j', 'd', 'e']]),
  (['k', 'a', 'j', 'n', 'a'], []),
  (['k', 'a', 'k', 'n', 'e'], [['k', 'a', '\'', 'e']]),
  (['k', 'a', 'k', 'p', 'a'], []),
  (['k', 'a', 'l', 'c', 'i'], []),
  (['k', 'a', 'l', 'r', 'i'], [['k', 'a', 'r']]),
  (['k', 'a', 'l', 's', 'a'], [['k', 'a', 's']]),
  (['k', 'a', 'l', 't', 'e'], [['k', 'a', 't']]),
  (['k', 'a', 'm', 'j', 'u'], []),
  (['k', 'a', 'm', 'n', 'i'], []),
  (['k', 'a', 'm', 'p', 'u'], [['k', 'a', 'u']]),
  (['k', 'a', 'n', 'b', 'a'], []),
  (['k', 'a', 'n', 'c', 'u'], [['k', 'a', 'c']]),
  (['k', 'a', 'n', 'd', 'i'], [['k', 'a', 'd']]),
  (['k', 'a', 'n', 'j', 'i'], [['k', 'a', 'j']]),
  (['k', 'a', 'n', 'l', 'a'], [['k', 'a', 'l']]),
  (['k', 'a', 'n', 'r', 'o'], [['k', 'a', '\'', 'o']]),
  (['k', 'a', 'n', 's', 'a'], [['k', 'a', 'n']]),
  (['k', 'a', 'n', 't', 'u'], [['k', 'a', '\'', 'u']]),
  (['k', 'a', 'n', 'x', 'e'], [['k', 'a', 'x']]),
  (['k', 'a', 'r', 'b', 'i'], [['k', 'a', 'b']]),
  (['k', 'a', 'r', 'c', 'e'], []),
  (['k', 'a', 'r', 'd', 'a'], []),
  (['k', 'a', 'r', 'g', 'u'], []),
  (['k', 'a', 'r', 'l', 'i'], []),
  (['k', 'a', 'r', 'n', 'i'], []),
  (['k', 'a', 't', 'n', 'a'], [['k', 'a', '\'', 'a']])]

/-- `jvocuhadju.c:104-652`: each entry is `gismu[i]` with `rafsi[start_indices[i]]`, ...,
`rafsi[start_indices[i]+n_rafsi[i]-1]`, entries 600-699. -/
def wordTable6 : List (Word × List Word) := [
  (['k', 'a', 'v', 'b', 'u'], [['k', 'a', 'v']]),
  (['k', 'e'], [['k', 'e', 'm']]),
  (['k', 'e', '\'', 'e'], [['k', 'e', 'p'], ['k', 'e', '\'', 'e']]),
  (['k', 'e', 'c', 't', 'i'], [['k', 'e', 'c'], ['k', 'e', '\'', 'i']]),
  (['k', 'e', 'i'], [['k', 'e', 'z']]),
  (['k', 'e', 'l', 'c', 'i'], [['k', 'e', 'l'], ['k', 'e', 'i']]),
  (['k', 'e', 'l', 'v', 'o'], [['k', 'e', '\'', 'o']]),
  (['k', 'e', 'n', 'r', 'a'], [['k', 'e', 'n']]),
  (['k', 'e', 'n', 's', 'a'], [['k', 'e', 's']]),
  (['k', 'e', 'r', 'f', 'a'], [['k', 'r', 'e']]),
  (['k', 'e', 'r', 'l', 'o'], [['k', 'e', 'r']]),
  (['k', 'e', 't', 'c', 'o'], [['k', 'e', 't'], ['t', 'c', 'o']]),
  (['k', 'e', 'v', 'n', 'a'], [['k', 'e', 'v'], ['k', 'e', '\'', 'a']]),
  (['k', 'i', 'c', 'n', 'e'], [['k', 'i', 'c'], ['k', 'i', '\'', 'e']]),
  (['k', 'i', 'j', 'n', 'o'], [['k', 'i', 'j']]),
  (['k', 'i', 'l', 't', 'o'], [['k', 'i', '\'', 'o']]),
  (['k', 'i', 'n', 'l', 'i'], [['k', 'i', 'l']]),
  (['k', 'i', 's', 't', 'o'], [['k', 'i', 's']]),
  (['k', 'l', 'a', 'j', 'i'], [['l', 'a', 'j']]),
  (['k', 'l', 'a', 'k', 'u'], [['k', 'a', 'k']]),
  (['k', 'l', 'a', 'm', 'a'], [['k', 'l', 'a']]),
  (['k', 'l', 'a', 'n', 'i'], [['l', 'a', 'i']]),
  (['k', 'l', 'e', 's', 'i'], [['k', 'l', 'e'], ['l', 'e', 'i']]),
  (['k', 'l', 'i', 'n', 'a'], [['k', 'l', 'i']]),
  (['k', 'l', 'i', 'r', 'u'], []),
  (['k', 'l', 'i', 't', 'i'], [['k', 'i', 't']]),
  (['k', 'l', 'u', 'p', 'e'], [['l', 'u', 'p'], ['l', 'u', '\'', 'e']]),
  (['k', 'l', 'u', 'z', 'a'], [['l', 'u', 'z']]),
  (['k', 'o', 'b', 'l', 'i'], [['k', 'o', 'b'], ['k', 'o', '\'', 'i']]),
  (['k', 'o', 'j', 'n', 'a'], [['k', 'o', 'j'], ['k', 'o', '\'', 'a']]),
  (['k', 'o', 'l', 'm', 'e'], [['k', 'o', 'l'], ['k', 'o', '\'', 'e']]),
  (['k', 'o', 'm', 'c', 'u'], [['k', 'o', 'm']]),
  (['k', 'o', 'n', 'j', 'u'], [['k', 'o', 'n'], ['k', 'o', '\'', 'u']]),
  (['k', 'o', 'r', 'b', 'i'], [['k', 'o', 'r'], ['k', 'o', 'i']]),
  (['k', 'o', 'r', 'c', 'u'], [['k', 'r', 'o']]),
  (['k', 'o', 'r', 'k', 'a'], [['k', 'o', 'k']]),
  (['k', 'o', 's', 't', 'a'], [['k', 'o', 's']]),
  (['k', 'r', 'a', 'm', 'u'], []),
  (['k', 'r', 'a', 's', 'i'], [['k', 'r', 'a']]),
  (['k', 'r', 'a', 't', 'i'], [['k', 'a', '\'', 'i']]),
  (['k', 'r', 'e', 'f', 'u'], [['r', 'e', 'f'], ['k', 'e', '\'', 'u']]),
  (['k', 'r', 'i', 'c', 'i'], [['k', 'r', 'i']]),
  (['k', 'r', 'i', 'l', 'i'], []),
  (['k', 'r', 'i', 'n', 'u'], [['r', 'i', 'n'], ['k', 'i', '\'', 'u']]),
  (['k', 'r', 'i', 'x', 'a'], [['k', 'i', 'x'], ['k', 'i', '\'', 'a']]),
  (['k', 'r', 'u', 'c', 'a'], [['k', 'u', 'c']]),
  (['k', 'r', 'u', 'j', 'i'], [['r', 'u', 'j']]),
  (['k', 'r', 'u', 'v', 'i'], [['r', 'u', 'v'], ['k', 'r', 'u']]),
  (['k', 'u', '\'', 'a'], [['k', 'u', 'z']]),
  (['k', 'u', 'b', 'l', 'i'], [['k', 'u', 'b']]),
  (['k', 'u', 'c', 'l', 'i'], []),
  (['k', 'u', 'f', 'r', 'a'], [['k', 'u', 'f']]),
  (['k', 'u', 'k', 't', 'e'], [['k', 'u', 'k']]),
  (['k', 'u', 'l', 'n', 'u'], [['k', 'l', 'u']]),
  (['k', 'u', 'm', 'f', 'a'], [['k', 'u', 'm'], ['k', 'u', '\'', 'a']]),
  (['k', 'u', 'm', 't', 'e'], []),
  (['k', 'u', 'n', 'r', 'a'], [['k', 'u', 'n']]),
  (['k', 'u', 'n', 't', 'i'], [['k', 'u', 't']]),
  (['k', 'u', 'r', 'f', 'a'], [['k', 'u', 'r']]),
  (['k', 'u', 'r', 'j', 'i'], [['k', 'u', 'j'], ['k', 'u', '\'', 'i']]),
  (['k', 'u', 'r', 'k', 'i'], []),
  (['k', 'u', 's', 'p', 'e'], [['k', 'u', 'p'], ['k', 'u', '\'', 'e']]),
  (['k', 'u', 's', 'r', 'u'], [['k', 'u', 's']]),
  (['l', 'a', 'b', 'n', 'o'], []),
  (['l', 'a', 'c', 'p', 'u'], [['l', 'a', 'p'], ['c', 'p', 'u']]),
  (['l', 'a', 'c', 'r', 'i'], [['l', 'a', 'c']]),
  (['l', 'a', 'd', 'r', 'u'], [['l', 'a', 'd']]),
  (['l', 'a', 'f', 't', 'i'], [['l', 'a', 'f']]),
  (['l', 'a', 'k', 'n', 'e'], [['l', 'a', '\'', 'e']]),
  (['l', 'a', 'k', 's', 'e'], [['l', 'a', 'k']]),
  (['l', 'a', 'l', 'x', 'u'], [['l', 'a', '\'', 'u']]),
  (['l', 'a', 'm', 'j', 'i'], [['l', 'a', 'm'], ['l', 'a', '\'', 'i']]),
  (['l', 'a', 'n', 'b', 'i'], []),
  (['l', 'a', 'n', 'c', 'i'], []),
  (['l', 'a', 'n', 'k', 'a'], []),
  (['l', 'a', 'n', 'l', 'i'], [['l', 'a', 'l']]),
  (['l', 'a', 'n', 'm', 'e'], [['l', 'a', 'n']]),
  (['l', 'a', 'n', 't', 'e'], []),
  (['l', 'a', 'n', 'x', 'e'], [['l', 'a', 'x']]),
  (['l', 'a', 'n', 'z', 'u'], [['l', 'a', 'z']]),
  (['l', 'a', 'r', 'c', 'u'], [['l', 'a', 'r']]),
  (['l', 'a', 's', 'n', 'a'], [['l', 'a', '\'', 'a']]),
  (['l', 'a', 's', 't', 'u'], []),
  (['l', 'a', 't', 'm', 'o'], [['l', 'a', '\'', 'o']]),
  (['l', 'a', 't', 'n', 'a'], []),
  (['l', 'a', 'z', 'n', 'i'], []),
  (['l', 'e', '\'', 'e'], [['l', 'e', 'm']]),
  (['l', 'e', 'b', 'n', 'a'], [['l', 'e', 'b'], ['l', 'e', '\'', 'a']]),
  (['l', 'e', 'n', 'j', 'o'], [['l', 'e', 'n'], ['l', 'e', '\'', 'o']]),
  (['l', 'e', 'n', 'k', 'u'], [['l', 'e', 'k']]),
  (['l', 'e', 'r', 'c', 'i'], [['l', 'e', 'c']]),
  (['l', 'e', 'r', 'f', 'u'], [['l', 'e', 'r'], ['l', 'e', '\'', 'u']]),
  (['l', 'i', '\'', 'i'], [['l', 'i', 'z']]),
  (['l', 'i', 'b', 'j', 'o'], [['l', 'i', 'b']]),
  (['l', 'i', 'd', 'n', 'e'], [['l', 'i', '\'', 'e']]),
  (['l', 'i', 'f', 'r', 'i'], [['l', 'i', 'f'], ['f', 'r', 'i']]),
  (['l', 'i', 'j', 'd', 'a'], [['j', 'd', 'a']]),
  (['l', 'i', 'm', 'n', 'a'], [['l', 'i', 'm']]),
  (['l', 'i', 'n', 'd', 'i'], [['l', 'i', 'd']]),
  (['l', 'i', 'n', 'j', 'i'], [['l', 'i', 'j'], ['l', 'i', '\'', 'i']])]

/-- `jvocuhadju.c:104-652`: each entry is `gismu[i]` with `rafsi[start_indices[i]]`, ...,
`rafsi[start_indices[i]+n_rafsi[i]-1]`, entries 700-799. -/
def wordTable7 : List (Word × List Word) := [
  (['l', 'i', 'n', 's', 'i'], [['l', 'i', 'n']]),
  (['l', 'i', 'n', 't', 'o'], [['l', 'i', '\'', 'o']]),
  (['l', 'i', 's', 'r', 'i'], [['l', 'i', 's']]),
  (['l', 'i', 's', 't', 'e'], [['s', 't', 'e']]),
  (['l', 'i', 't', 'c', 'e'], [['l', 'i', 'c']]),
  (['l', 'i', 't', 'k', 'i'], [['l', 'i', 'k']]),
  (['l', 'i', 't', 'r', 'u'], [['l', 'i', '\'', 'u']]),
  (['l', 'i', 'v', 'g', 'a'], []),
  (['l', 'i', 'v', 'l', 'a'], [['l', 'i', 'l']]),
  (['l', 'o', '\'', 'e'], [['l', 'o', 'm']]),
  (['l', 'o', 'g', 'j', 'i'], [['l', 'o', 'j']]),
  (['l', 'o', 'j', 'b', 'o'], [['l', 'o', 'b'], ['j', 'b', 'o']]),
  (['l', 'o', 'l', 'd', 'i'], [['l', 'o', 'l'], ['l', 'o', 'i']]),
  (['l', 'o', 'r', 'x', 'u'], [['l', 'o', 'r'], ['l', 'o', '\'', 'u']]),
  (['l', 'u', 'b', 'n', 'o'], [['l', 'u', '\'', 'o']]),
  (['l', 'u', 'j', 'v', 'o'], [['l', 'u', 'v'], ['j', 'v', 'o']]),
  (['l', 'u', 'm', 'c', 'i'], [['l', 'u', 'm'], ['l', 'u', '\'', 'i']]),
  (['l', 'u', 'n', 'b', 'e'], [['l', 'u', 'b']]),
  (['l', 'u', 'n', 'r', 'a'], [['l', 'u', 'r']]),
  (['l', 'u', 'n', 's', 'a'], [['l', 'u', 's']]),
  (['m', 'a', 'b', 'l', 'a'], [['m', 'a', 'l']]),
  (['m', 'a', 'b', 'r', 'u'], [['m', 'a', 'b']]),
  (['m', 'a', 'c', 'n', 'u'], [['c', 'n', 'u']]),
  (['m', 'a', 'k', 'c', 'u'], [['m', 'a', '\'', 'u']]),
  (['m', 'a', 'k', 'f', 'a'], [['m', 'a', 'f']]),
  (['m', 'a', 'k', 's', 'i'], [['m', 'a', 'k']]),
  (['m', 'a', 'l', 's', 'i'], [['m', 'a', 's']]),
  (['m', 'a', 'm', 't', 'a'], [['m', 'a', 'm']]),
  (['m', 'a', 'n', 'c', 'i'], [['m', 'a', 'c']]),
  (['m', 'a', 'n', 'f', 'o'], []),
  (['m', 'a', 'n', 'k', 'u'], [['m', 'a', 'n']]),
  (['m', 'a', 'n', 'r', 'i'], [['m', 'a', 'r']]),
  (['m', 'a', 'n', 's', 'a'], []),
  (['m', 'a', 'n', 't', 'i'], []),
  (['m', 'a', 'p', 'k', 'u'], [['m', 'a', 'p']]),
  (['m', 'a', 'p', 'n', 'i'], []),
  (['m', 'a', 'p', 't', 'i'], [['m', 'a', 't']]),
  (['m', 'a', 'r', 'b', 'i'], [['m', 'r', 'a']]),
  (['m', 'a', 'r', 'c', 'e'], [['m', 'a', '\'', 'e']]),
  (['m', 'a', 'r', 'd', 'e'], [['m', 'a', 'd']]),
  (['m', 'a', 'r', 'g', 'u'], [['m', 'a', 'g']]),
  (['m', 'a', 'r', 'j', 'i'], [['m', 'a', 'j'], ['m', 'a', 'i']]),
  (['m', 'a', 'r', 'n', 'a'], []),
  (['m', 'a', 'r', 'x', 'a'], [['m', 'a', 'x']]),
  (['m', 'a', 's', 'n', 'o'], [['s', 'n', 'o']]),
  (['m', 'a', 's', 't', 'i'], [['m', 'a', '\'', 'i']]),
  (['m', 'a', 't', 'c', 'i'], []),
  (['m', 'a', 't', 'l', 'i'], []),
  (['m', 'a', 't', 'n', 'e'], []),
  (['m', 'a', 't', 'r', 'a'], []),
  (['m', 'a', 'v', 'j', 'i'], [['m', 'a', 'v']]),
  (['m', 'a', 'x', 'r', 'i'], [['x', 'r', 'i']]),
  (['m', 'e', 'b', 'r', 'i'], [['m', 'e', 'b']]),
  (['m', 'e', 'g', 'd', 'o'], [['m', 'e', 'g']]),
  (['m', 'e', 'i'], [['m', 'e', 'm'], ['m', 'e', 'i']]),
  (['m', 'e', 'k', 's', 'o'], [['m', 'e', 'k'], ['m', 'e', '\'', 'o']]),
  (['m', 'e', 'l', 'b', 'i'], [['m', 'e', 'l'], ['m', 'l', 'e']]),
  (['m', 'e', 'l', 'j', 'o'], [['m', 'e', 'j']]),
  (['m', 'e', 'n', 'l', 'i'], [['m', 'e', 'n']]),
  (['m', 'e', 'n', 's', 'i'], [['m', 'e', 's'], ['m', 'e', '\'', 'i']]),
  (['m', 'e', 'n', 't', 'u'], [['m', 'e', 't'], ['m', 'e', '\'', 'u']]),
  (['m', 'e', 'r', 'k', 'o'], [['m', 'e', 'r']]),
  (['m', 'e', 'r', 'l', 'i'], [['m', 'r', 'e']]),
  (['m', 'e', 'x', 'n', 'o'], [['m', 'e', 'x']]),
  (['m', 'i'], [['m', 'i', 'b']]),
  (['m', 'i', 'd', 'j', 'u'], [['m', 'i', 'j']]),
  (['m', 'i', 'f', 'r', 'a'], [['m', 'i', 'f']]),
  (['m', 'i', 'k', 'c', 'e'], [['m', 'i', 'c']]),
  (['m', 'i', 'k', 'r', 'i'], [['m', 'i', 'k']]),
  (['m', 'i', 'l', 't', 'i'], [['m', 'i', 'l']]),
  (['m', 'i', 'l', 'x', 'e'], [['m', 'l', 'i']]),
  (['m', 'i', 'n', 'd', 'e'], [['m', 'i', 'd'], ['m', 'i', '\'', 'e']]),
  (['m', 'i', 'n', 'j', 'i'], [['m', 'i', '\'', 'i']]),
  (['m', 'i', 'n', 'l', 'i'], []),
  (['m', 'i', 'n', 'r', 'a'], [['m', 'i', 'r']]),
  (['m', 'i', 'n', 't', 'u'], [['m', 'i', 't'], ['m', 'i', '\'', 'u']]),
  (['m', 'i', 'p', 'r', 'i'], [['m', 'i', 'p']]),
  (['m', 'i', 'r', 'l', 'i'], []),
  (['m', 'i', 's', 'n', 'o'], [['m', 'i', 's'], ['m', 'i', '\'', 'o']]),
  (['m', 'i', 's', 'r', 'o'], []),
  (['m', 'i', 't', 'r', 'e'], [['t', 'r', 'e']]),
  (['m', 'i', 'x', 'r', 'e'], [['m', 'i', 'x'], ['x', 'r', 'e']]),
  (['m', 'l', 'a', 'n', 'a'], [['m', 'l', 'a']]),
  (['m', 'l', 'a', 't', 'u'], [['l', 'a', 't']]),
  (['m', 'l', 'e', 'c', 'a'], [['m', 'e', 'c'], ['m', 'e', '\'', 'a']]),
  (['m', 'l', 'e', 'd', 'i'], [['l', 'e', 'd']]),
  (['m', 'l', 'u', 'n', 'i'], [['l', 'u', 'n']]),
  (['m', 'o', '\'', 'a'], [['m', 'o', 'b']]),
  (['m', 'o', '\'', 'i'], [['m', 'o', 'v']]),
  (['m', 'o', 'i'], [['m', 'o', 'm'], ['m', 'o', 'i']]),
  (['m', 'o', 'k', 'c', 'a'], [['m', 'o', 'c']]),
  (['m', 'o', 'k', 'l', 'u'], [['m', 'o', 'l'], ['m', 'o', '\'', 'u']]),
  (['m', 'o', 'l', 'k', 'i'], [['m', 'l', 'o']]),
  (['m', 'o', 'l', 'r', 'o'], [['m', 'o', '\'', 'o']]),
  (['m', 'o', 'r', 'j', 'i'], [['m', 'o', 'j'], ['m', 'o', '\'', 'i']]),
  (['m', 'o', 'r', 'k', 'o'], [['m', 'o', 'r']]),
  (['m', 'o', 'r', 'n', 'a'], [['m', 'o', 'n'], ['m', 'o', '\'', 'a']]),
  (['m', 'o', 'r', 's', 'i'], [['m', 'r', 'o']]),
  (['m', 'o', 's', 'r', 'a'], [['m', 'o', 's']]),
  (['m', 'r', 'a', 'j', 'i'], [])]

/-- `jvocuhadju.c:104-652`: each entry is `gismu[i]` with `rafsi[start_indices[i]]`, ...,
`rafsi[start_indices[i]+n_rafsi[i]-1]`, entries 800-899. -/
def wordTable8 : List (Word × List Word) := [
  (['m', 'r', 'i', 'l', 'u'], [['m', 'r', 'i']]),
  (['m', 'r', 'u', 'l', 'i'], [['m', 'r', 'u']]),
  (['m', 'u'], [['m', 'u', 'm']]),
  (['m', 'u', '\'', 'e'], [['m', 'u', 'f']]),
  (['m', 'u', 'c', 't', 'i'], [['m', 'u', 't']]),
  (['m', 'u', 'd', 'r', 'i'], [['m', 'u', 'd']]),
  (['m', 'u', 'k', 't', 'i'], [['m', 'u', 'k'], ['m', 'u', '\'', 'i']]),
  (['m', 'u', 'l', 'n', 'o'], [['m', 'u', 'l'], ['m', 'u', '\'', 'o']]),
  (['m', 'u', 'n', 'j', 'e'], [['m', 'u', 'j'], ['m', 'u', '\'', 'e']]),
  (['m', 'u', 'p', 'l', 'i'], [['m', 'u', 'p']]),
  (['m', 'u', 'r', 's', 'e'], []),
  (['m', 'u', 'r', 't', 'a'], [['m', 'u', 'r'], ['m', 'u', '\'', 'a']]),
  (['m', 'u', 's', 'l', 'o'], [['m', 'u', 's']]),
  (['m', 'u', 't', 'c', 'e'], [['t', 'c', 'e']]),
  (['m', 'u', 'v', 'd', 'u'], [['m', 'u', 'v'], ['m', 'u', '\'', 'u']]),
  (['m', 'u', 'z', 'g', 'a'], [['m', 'u', 'z']]),
  (['n', 'a'], [['n', 'a', 'r']]),
  (['n', 'a', '\'', 'e'], [['n', 'a', 'l']]),
  (['n', 'a', 'b', 'm', 'i'], [['n', 'a', 'm']]),
  (['n', 'a', 'k', 'n', 'i'], [['n', 'a', 'k']]),
  (['n', 'a', 'l', 'c', 'i'], [['n', 'a', '\'', 'i']]),
  (['n', 'a', 'm', 'c', 'u'], [['n', 'a', 'c'], ['n', 'a', '\'', 'u']]),
  (['n', 'a', 'n', 'b', 'a'], [['n', 'a', 'b']]),
  (['n', 'a', 'n', 'c', 'a'], [['n', 'a', '\'', 'a']]),
  (['n', 'a', 'n', 'd', 'u'], [['n', 'a', 'd']]),
  (['n', 'a', 'n', 'l', 'a'], []),
  (['n', 'a', 'n', 'm', 'u'], [['n', 'a', 'u']]),
  (['n', 'a', 'n', 'v', 'i'], [['n', 'a', 'v']]),
  (['n', 'a', 'r', 'g', 'e'], [['n', 'a', 'g']]),
  (['n', 'a', 'r', 'j', 'u'], [['n', 'a', 'j']]),
  (['n', 'a', 't', 'f', 'e'], [['n', 'a', 'f'], ['n', 'a', '\'', 'e']]),
  (['n', 'a', 't', 'm', 'i'], [['n', 'a', 't'], ['n', 'a', 'i']]),
  (['n', 'a', 'v', 'n', 'i'], []),
  (['n', 'a', 'x', 'l', 'e'], [['n', 'a', 'x'], ['x', 'l', 'e']]),
  (['n', 'a', 'z', 'b', 'i'], [['n', 'a', 'z'], ['z', 'b', 'i']]),
  (['n', 'e', 'j', 'n', 'i'], [['n', 'e', 'n']]),
  (['n', 'e', 'l', 'c', 'i'], [['n', 'e', 'l'], ['n', 'e', 'i']]),
  (['n', 'e', 'n', 'r', 'i'], [['n', 'e', 'r'], ['n', 'e', '\'', 'i']]),
  (['n', 'i'], [['n', 'i', 'l']]),
  (['n', 'i', 'b', 'l', 'i'], [['n', 'i', 'b'], ['n', 'i', '\'', 'i']]),
  (['n', 'i', 'c', 't', 'e'], [['c', 't', 'e']]),
  (['n', 'i', 'k', 'l', 'e'], [['n', 'i', 'k']]),
  (['n', 'i', 'l', 'c', 'e'], [['n', 'i', '\'', 'e']]),
  (['n', 'i', 'm', 'r', 'e'], []),
  (['n', 'i', 'n', 'm', 'u'], [['n', 'i', 'm'], ['n', 'i', '\'', 'u']]),
  (['n', 'i', 'r', 'n', 'a'], [['n', 'i', 'r']]),
  (['n', 'i', 't', 'c', 'u'], [['t', 'c', 'u']]),
  (['n', 'i', 'v', 'j', 'i'], [['n', 'i', 'v']]),
  (['n', 'i', 'x', 'l', 'i'], [['n', 'i', 'x'], ['x', 'l', 'i']]),
  (['n', 'o'], [['n', 'o', 'n']]),
  (['n', 'o', '\'', 'e'], [['n', 'o', 'r'], ['n', 'o', '\'', 'e']]),
  (['n', 'o', 'b', 'l', 'i'], [['n', 'o', 'l'], ['n', 'o', '\'', 'i']]),
  (['n', 'o', 't', 'c', 'i'], [['n', 'o', 't'], ['n', 'o', 'i']]),
  (['n', 'u'], [['n', 'u', 'n']]),
  (['n', 'u', '\'', 'o'], [['n', 'u', '\'', 'o']]),
  (['n', 'u', 'k', 'n', 'i'], [['n', 'u', 'k']]),
  (['n', 'u', 'p', 'r', 'e'], [['n', 'u', 'p'], ['n', 'u', '\'', 'e']]),
  (['n', 'u', 'r', 'm', 'a'], [['n', 'u', 'm']]),
  (['n', 'u', 't', 'l', 'i'], [['n', 'u', 'l'], ['n', 'u', '\'', 'i']]),
  (['n', 'u', 'z', 'b', 'a'], [['n', 'u', 'z']]),
  (['p', 'a'], [['p', 'a', 'v']]),
  (['p', 'a', 'c', 'n', 'a'], [['p', 'a', '\'', 'a']]),
  (['p', 'a', 'g', 'b', 'u'], [['p', 'a', 'g'], ['p', 'a', 'u']]),
  (['p', 'a', 'g', 'r', 'e'], [['g', 'r', 'e']]),
  (['p', 'a', 'j', 'n', 'i'], [['p', 'a', 'i']]),
  (['p', 'a', 'l', 'c', 'i'], [['p', 'a', 'c']]),
  (['p', 'a', 'l', 'k', 'u'], [['p', 'a', 'k']]),
  (['p', 'a', 'l', 'n', 'e'], []),
  (['p', 'a', 'l', 't', 'a'], []),
  (['p', 'a', 'm', 'b', 'e'], []),
  (['p', 'a', 'n', 'c', 'i'], [['p', 'a', 'n']]),
  (['p', 'a', 'n', 'd', 'i'], [['p', 'a', 'd']]),
  (['p', 'a', 'n', 'j', 'e'], []),
  (['p', 'a', 'n', 'k', 'a'], []),
  (['p', 'a', 'n', 'l', 'o'], [['p', 'a', '\'', 'o']]),
  (['p', 'a', 'n', 'p', 'i'], [['p', 'a', 'p']]),
  (['p', 'a', 'n', 'r', 'a'], []),
  (['p', 'a', 'n', 't', 'e'], [['p', 'a', 't']]),
  (['p', 'a', 'n', 'z', 'i'], [['p', 'a', 'z']]),
  (['p', 'a', 'p', 'r', 'i'], []),
  (['p', 'a', 'r', 'b', 'i'], [['p', 'a', 'b']]),
  (['p', 'a', 's', 't', 'u'], [['p', 'a', 's']]),
  (['p', 'a', 't', 'f', 'u'], [['p', 'a', 'f'], ['p', 'a', '\'', 'u']]),
  (['p', 'a', 't', 'l', 'u'], []),
  (['p', 'a', 't', 'x', 'u'], [['p', 'a', 'x']]),
  (['p', 'e', '\'', 'a'], [['p', 'e', 'v']]),
  (['p', 'e', 'l', 'j', 'i'], [['p', 'l', 'e']]),
  (['p', 'e', 'l', 'x', 'u'], [['p', 'e', 'l']]),
  (['p', 'e', 'm', 'c', 'i'], [['p', 'e', 'm']]),
  (['p', 'e', 'n', 'b', 'i'], [['p', 'e', 'b']]),
  (['p', 'e', 'n', 'c', 'u'], [['p', 'e', 'c'], ['p', 'e', '\'', 'u']]),
  (['p', 'e', 'n', 'd', 'o'], [['p', 'e', 'd'], ['p', 'e', '\'', 'o']]),
  (['p', 'e', 'n', 'm', 'i'], [['p', 'e', 'n'], ['p', 'e', '\'', 'i']]),
  (['p', 'e', 'n', 's', 'i'], [['p', 'e', 's'], ['p', 'e', 'i']]),
  (['p', 'e', 'r', 'l', 'i'], [['p', 'e', 'r']]),
  (['p', 'e', 's', 'x', 'u'], [['p', 'e', 'x']]),
  (['p', 'e', 't', 's', 'o'], [['p', 'e', 't']]),
  (['p', 'e', 'z', 'l', 'i'], [['p', 'e', 'z']]),
  (['p', 'i'], [['p', 'i', 'z']]),
  (['p', 'i', '\'', 'u'], [['p', 'i', 'v']])]

/-- `jvocuhadju.c:104-652`: each entry is `gismu[i]` with `rafsi[start_indices[i]]`, ...,
`rafsi[start_indices[i]+n_rafsi[i]-1]`, entries 900-999. -/
def wordTable9 : List (Word × List Word) := [
  (['p', 'i', 'c', 't', 'i'], [['p', 'i', 'c']]),
  (['p', 'i', 'j', 'n', 'e'], []),
  (['p', 'i', 'k', 'c', 'i'], []),
  (['p', 'i', 'k', 't', 'a'], []),
  (['p', 'i', 'l', 'j', 'i'], [['p', 'i', '\'', 'i']]),
  (['p', 'i', 'l', 'k', 'a'], [['p', 'i', 'l'], ['p', 'i', '\'', 'a']]),
  (['p', 'i', 'l', 'n', 'o'], [['p', 'l', 'i']]),
  (['p', 'i', 'm', 'l', 'u'], [['p', 'i', 'm'], ['p', 'i', '\'', 'u']]),
  (['p', 'i', 'n', 'c', 'a'], []),
  (['p', 'i', 'n', 'd', 'i'], [['p', 'i', 'd']]),
  (['p', 'i', 'n', 'f', 'u'], [['p', 'i', 'f']]),
  (['p', 'i', 'n', 'j', 'i'], []),
  (['p', 'i', 'n', 'k', 'a'], [['p', 'i', 'k']]),
  (['p', 'i', 'n', 's', 'i'], [['p', 'i', 's']]),
  (['p', 'i', 'n', 't', 'a'], [['p', 'i', 'n']]),
  (['p', 'i', 'n', 'x', 'e'], [['p', 'i', 'x']]),
  (['p', 'i', 'p', 'n', 'o'], [['p', 'i', '\'', 'o']]),
  (['p', 'i', 'x', 'r', 'a'], [['p', 'i', 'r'], ['x', 'r', 'a']]),
  (['p', 'l', 'a', 'n', 'a'], []),
  (['p', 'l', 'a', 't', 'u'], [['p', 'l', 'a']]),
  (['p', 'l', 'e', 'j', 'i'], [['l', 'e', 'j'], ['l', 'e', '\'', 'i']]),
  (['p', 'l', 'i', 'b', 'u'], [['p', 'i', 'b']]),
  (['p', 'l', 'i', 'n', 'i'], []),
  (['p', 'l', 'i', 'p', 'e'], [['p', 'i', 'p'], ['p', 'i', '\'', 'e']]),
  (['p', 'l', 'i', 's', 'e'], []),
  (['p', 'l', 'i', 't', 'a'], [['p', 'i', 't']]),
  (['p', 'l', 'i', 'x', 'a'], [['l', 'i', 'x']]),
  (['p', 'l', 'u', 'j', 'a'], [['l', 'u', 'j']]),
  (['p', 'l', 'u', 'k', 'a'], [['p', 'u', 'k'], ['p', 'u', '\'', 'a']]),
  (['p', 'l', 'u', 't', 'a'], [['l', 'u', 't'], ['l', 'u', '\'', 'a']]),
  (['p', 'o', 'l', 'j', 'e'], [['p', 'l', 'o']]),
  (['p', 'o', 'l', 'n', 'o'], [['p', 'o', 'l']]),
  (['p', 'o', 'n', 'j', 'o'], [['p', 'o', 'n'], ['p', 'o', '\'', 'o']]),
  (['p', 'o', 'n', 's', 'e'], [['p', 'o', 's'], ['p', 'o', '\'', 'e']]),
  (['p', 'o', 'r', 'p', 'i'], [['p', 'o', 'p'], ['p', 'o', '\'', 'i']]),
  (['p', 'o', 'r', 's', 'i'], [['p', 'o', 'r'], ['p', 'o', 'i']]),
  (['p', 'o', 'r', 't', 'o'], [['p', 'o', 't']]),
  (['p', 'r', 'a', 'l', 'i'], [['p', 'a', 'l']]),
  (['p', 'r', 'a', 'm', 'i'], [['p', 'a', 'm'], ['p', 'a', '\'', 'i']]),
  (['p', 'r', 'a', 'n', 'e'], [['p', 'a', '\'', 'e']]),
  (['p', 'r', 'e', 'j', 'a'], [['p', 'e', 'j'], ['p', 'e', '\'', 'a']]),
  (['p', 'r', 'e', 'n', 'u'], [['p', 'r', 'e']]),
  (['p', 'r', 'e', 't', 'i'], [['r', 'e', 't'], ['r', 'e', 'i']]),
  (['p', 'r', 'i', 'j', 'e'], [['p', 'i', 'j']]),
  (['p', 'r', 'i', 'n', 'a'], [['p', 'r', 'i']]),
  (['p', 'r', 'i', 't', 'u'], []),
  (['p', 'r', 'o', 's', 'a'], [['r', 'o', 's'], ['r', 'o', '\'', 'a']]),
  (['p', 'r', 'u', 'c', 'e'], [['r', 'u', 'c'], ['r', 'u', '\'', 'e']]),
  (['p', 'r', 'u', 'n', 'i'], [['p', 'u', 'n']]),
  (['p', 'r', 'u', 'x', 'i'], [['r', 'u', 'x'], ['r', 'u', '\'', 'i']]),
  (['p', 'u', '\'', 'i'], [['p', 'u', 's']]),
  (['p', 'u', '\'', 'u'], [['p', 'u', 'v']]),
  (['p', 'u', 'l', 'c', 'e'], [['p', 'u', 'c'], ['p', 'u', '\'', 'e']]),
  (['p', 'u', 'l', 'j', 'i'], []),
  (['p', 'u', 'l', 'n', 'i'], []),
  (['p', 'u', 'n', 'j', 'i'], [['p', 'u', 'j'], ['p', 'u', '\'', 'i']]),
  (['p', 'u', 'n', 'l', 'i'], [['p', 'u', 'l']]),
  (['p', 'u', 'r', 'c', 'i'], [['p', 'u', 'r'], ['p', 'r', 'u']]),
  (['p', 'u', 'r', 'd', 'i'], [['p', 'u', 'd']]),
  (['p', 'u', 'r', 'm', 'o'], [['p', 'u', 'm'], ['p', 'u', '\'', 'o']]),
  (['r', 'a', 'c', 'l', 'i'], []),
  (['r', 'a', 'c', 't', 'u'], []),
  (['r', 'a', 'd', 'n', 'o'], [['r', 'a', '\'', 'o']]),
  (['r', 'a', 'f', 's', 'i'], [['r', 'a', 'f']]),
  (['r', 'a', 'g', 'v', 'e'], [['r', 'a', 'v']]),
  (['r', 'a', 'k', 's', 'o'], []),
  (['r', 'a', 'k', 't', 'u'], [['r', 'a', '\'', 'u']]),
  (['r', 'a', 'l', 'c', 'i'], [['r', 'a', 'c']]),
  (['r', 'a', 'l', 'j', 'u'], [['r', 'a', 'l']]),
  (['r', 'a', 'l', 't', 'e'], [['r', 'a', '\'', 'e']]),
  (['r', 'a', 'n', 'd', 'a'], [['r', 'a', 'd']]),
  (['r', 'a', 'n', 'g', 'o'], [['r', 'a', 'g']]),
  (['r', 'a', 'n', 'j', 'i'], [['r', 'a', '\'', 'i']]),
  (['r', 'a', 'n', 'm', 'i'], [['r', 'a', 'm']]),
  (['r', 'a', 'n', 's', 'u'], []),
  (['r', 'a', 'n', 't', 'i'], [['r', 'a', 'n']]),
  (['r', 'a', 'n', 'x', 'i'], [['r', 'a', 'x']]),
  (['r', 'a', 'p', 'l', 'i'], [['r', 'a', 'p']]),
  (['r', 'a', 'r', 'n', 'a'], [['r', 'a', 'r']]),
  (['r', 'a', 't', 'c', 'u'], []),
  (['r', 'a', 't', 'n', 'i'], [['r', 'a', 't']]),
  (['r', 'e'], [['r', 'e', 'l']]),
  (['r', 'e', 'b', 'l', 'a'], [['r', 'e', 'b']]),
  (['r', 'e', 'c', 't', 'u'], [['r', 'e', 'c'], ['r', 'e', '\'', 'u']]),
  (['r', 'e', 'm', 'n', 'a'], [['r', 'e', 'm'], ['r', 'e', '\'', 'a']]),
  (['r', 'e', 'n', 'r', 'o'], [['r', 'e', 'r'], ['r', 'e', '\'', 'o']]),
  (['r', 'e', 'n', 'v', 'i'], [['r', 'e', 'v'], ['r', 'e', '\'', 'i']]),
  (['r', 'e', 's', 'p', 'a'], [['r', 'e', 's']]),
  (['r', 'i', 'c', 'f', 'u'], [['r', 'i', 'f'], ['c', 'f', 'u']]),
  (['r', 'i', 'g', 'n', 'i'], [['r', 'i', 'g']]),
  (['r', 'i', 'j', 'n', 'o'], [['r', 'i', 'j']]),
  (['r', 'i', 'l', 't', 'i'], [['r', 'i', 'l']]),
  (['r', 'i', 'm', 'n', 'i'], [['r', 'i', 'm']]),
  (['r', 'i', 'n', 'c', 'i'], []),
  (['r', 'i', 'n', 'j', 'u'], [['r', 'i', '\'', 'u']]),
  (['r', 'i', 'n', 'k', 'a'], [['r', 'i', 'k'], ['r', 'i', '\'', 'a']]),
  (['r', 'i', 'n', 's', 'a'], []),
  (['r', 'i', 'r', 'c', 'i'], []),
  (['r', 'i', 'r', 'n', 'i'], [['r', 'i', 'r']]),
  (['r', 'i', 'r', 'x', 'e'], [['r', 'i', '\'', 'e']])]

/-- `jvocuhadju.c:104-652`: each entry is `gismu[i]` with `rafsi[start_indices[i]]`, ...,
`rafsi[start_indices[i]+n_rafsi[i]-1]`, entries 1000-1099. -/
def wordTable10 : List (Word × List Word) := [
  (['r', 'i', 's', 'm', 'i'], [['r', 'i', 's']]),
  (['r', 'i', 's', 'n', 'a'], []),
  (['r', 'i', 't', 'l', 'i'], [['r', 'i', '\'', 'i']]),
  (['r', 'i', 'v', 'b', 'i'], [['r', 'i', 'v']]),
  (['r', 'o'], [['r', 'o', 'l']]),
  (['r', 'o', 'i'], [['r', 'o', 'm'], ['r', 'o', 'i']]),
  (['r', 'o', 'k', 'c', 'i'], [['r', 'o', 'k'], ['r', 'o', '\'', 'i']]),
  (['r', 'o', 'm', 'g', 'e'], [['r', 'o', 'g']]),
  (['r', 'o', 'p', 'n', 'o'], [['r', 'o', 'n'], ['r', 'o', '\'', 'o']]),
  (['r', 'o', 'r', 'c', 'i'], [['r', 'o', 'r']]),
  (['r', 'o', 't', 's', 'u'], [['r', 'o', 't'], ['t', 's', 'u'], ['r', 'o', '\'', 'u']]),
  (['r', 'o', 'z', 'g', 'u'], [['r', 'o', 'z'], ['z', 'g', 'u']]),
  (['r', 'u', 'b', 'l', 'e'], [['r', 'u', 'b'], ['b', 'l', 'e']]),
  (['r', 'u', 'f', 's', 'u'], [['r', 'u', 'f']]),
  (['r', 'u', 'n', 'm', 'e'], [['r', 'u', 'm']]),
  (['r', 'u', 'n', 't', 'a'], []),
  (['r', 'u', 'p', 'n', 'u'], [['r', 'u', 'p'], ['r', 'u', '\'', 'u']]),
  (['r', 'u', 's', 'k', 'o'], [['r', 'u', 'k'], ['r', 'u', '\'', 'o']]),
  (['r', 'u', 't', 'n', 'i'], [['r', 'u', 'n']]),
  (['s', 'a', 'b', 'j', 'i'], [['s', 'a', 'b']]),
  (['s', 'a', 'b', 'n', 'u'], []),
  (['s', 'a', 'c', 'k', 'i'], []),
  (['s', 'a', 'c', 'l', 'u'], []),
  (['s', 'a', 'd', 'j', 'o'], [['d', 'j', 'o']]),
  (['s', 'a', 'k', 'c', 'i'], [['s', 'a', 'k']]),
  (['s', 'a', 'k', 'l', 'i'], [['s', 'a', 'l']]),
  (['s', 'a', 'k', 't', 'a'], [['s', 'a', 't']]),
  (['s', 'a', 'l', 'c', 'i'], [['s', 'l', 'a']]),
  (['s', 'a', 'l', 'p', 'o'], [['s', 'a', '\'', 'o']]),
  (['s', 'a', 'l', 't', 'a'], []),
  (['s', 'a', 'm', 'c', 'u'], []),
  (['s', 'a', 'm', 'p', 'u'], [['s', 'a', 'p']]),
  (['s', 'a', 'n', 'c', 'e'], [['s', 'n', 'a']]),
  (['s', 'a', 'n', 'g', 'a'], [['s', 'a', 'g'], ['s', 'a', '\'', 'a']]),
  (['s', 'a', 'n', 'j', 'i'], [['s', 'a', 'j']]),
  (['s', 'a', 'n', 'l', 'i'], [['s', 'a', '\'', 'i']]),
  (['s', 'a', 'n', 'm', 'i'], [['s', 'a', 'i']]),
  (['s', 'a', 'n', 's', 'o'], []),
  (['s', 'a', 'n', 't', 'a'], []),
  (['s', 'a', 'r', 'c', 'u'], [['s', 'a', '\'', 'u']]),
  (['s', 'a', 'r', 'j', 'i'], [['s', 'r', 'a']]),
  (['s', 'a', 'r', 'l', 'u'], []),
  (['s', 'a', 'r', 'x', 'e'], [['s', 'a', 'x']]),
  (['s', 'a', 's', 'k', 'e'], [['s', 'k', 'e']]),
  (['s', 'a', 't', 'c', 'i'], []),
  (['s', 'a', 't', 'r', 'e'], [['s', 'a', '\'', 'e']]),
  (['s', 'a', 'v', 'r', 'u'], [['s', 'a', 'v'], ['v', 'r', 'u']]),
  (['s', 'a', 'z', 'r', 'i'], [['s', 'a', 'z']]),
  (['s', 'e'], [['s', 'e', 'l']]),
  (['s', 'e', 'f', 't', 'a'], [['s', 'f', 'e']]),
  (['s', 'e', 'l', 'c', 'i'], [['s', 'l', 'e']]),
  (['s', 'e', 'l', 'f', 'u'], [['s', 'e', 'f'], ['s', 'e', '\'', 'u']]),
  (['s', 'e', 'm', 't', 'o'], [['s', 'm', 'e']]),
  (['s', 'e', 'n', 'c', 'i'], [['s', 'e', 'c']]),
  (['s', 'e', 'n', 'p', 'i'], [['s', 'e', 'n']]),
  (['s', 'e', 'n', 't', 'a'], [['s', 'e', 't']]),
  (['s', 'e', 'n', 'v', 'a'], [['s', 'e', 'v'], ['s', 'n', 'e']]),
  (['s', 'e', 'p', 'l', 'i'], [['s', 'e', 'p'], ['s', 'e', 'i']]),
  (['s', 'e', 'r', 't', 'i'], [['s', 'e', 'r']]),
  (['s', 'e', 't', 'c', 'a'], [['s', 'e', '\'', 'a']]),
  (['s', 'e', 'v', 'z', 'i'], [['s', 'e', 'z'], ['s', 'e', '\'', 'i']]),
  (['s', 'f', 'a', 'n', 'i'], []),
  (['s', 'f', 'a', 's', 'a'], [['s', 'f', 'a']]),
  (['s', 'f', 'o', 'f', 'a'], [['s', 'f', 'o']]),
  (['s', 'f', 'u', 'b', 'u'], [['s', 'u', 'b'], ['s', 'u', '\'', 'u']]),
  (['s', 'i', '\'', 'o'], [['s', 'i', 'z']]),
  (['s', 'i', 'c', 'l', 'u'], [['s', 'i', 'l']]),
  (['s', 'i', 'c', 'n', 'i'], [['s', 'i', '\'', 'i']]),
  (['s', 'i', 'd', 'b', 'o'], [['s', 'i', 'b'], ['s', 'i', '\'', 'o']]),
  (['s', 'i', 'd', 'j', 'u'], [['d', 'j', 'u']]),
  (['s', 'i', 'g', 'j', 'a'], [['s', 'i', 'g']]),
  (['s', 'i', 'l', 'k', 'a'], [['s', 'i', 'k']]),
  (['s', 'i', 'l', 'n', 'a'], []),
  (['s', 'i', 'm', 'l', 'u'], [['m', 'l', 'u']]),
  (['s', 'i', 'm', 's', 'a'], [['s', 'm', 'i']]),
  (['s', 'i', 'm', 'x', 'u'], [['s', 'i', 'm'], ['s', 'i', '\'', 'u']]),
  (['s', 'i', 'n', 'c', 'e'], []),
  (['s', 'i', 'n', 'm', 'a'], [['s', 'i', '\'', 'a']]),
  (['s', 'i', 'n', 's', 'o'], []),
  (['s', 'i', 'n', 'x', 'a'], [['s', 'n', 'i']]),
  (['s', 'i', 'p', 'n', 'a'], [['s', 'i', 'p']]),
  (['s', 'i', 'r', 'j', 'i'], [['s', 'i', 'r']]),
  (['s', 'i', 'r', 'x', 'o'], [['s', 'i', 'x']]),
  (['s', 'i', 's', 'k', 'u'], [['s', 'i', 's']]),
  (['s', 'i', 's', 't', 'i'], [['s', 't', 'i']]),
  (['s', 'i', 't', 'n', 'a'], [['s', 'i', 't']]),
  (['s', 'i', 'v', 'n', 'i'], [['s', 'i', 'v']]),
  (['s', 'k', 'a', 'c', 'i'], []),
  (['s', 'k', 'a', 'm', 'i'], [['s', 'a', 'm']]),
  (['s', 'k', 'a', 'p', 'i'], [['k', 'a', 'p']]),
  (['s', 'k', 'a', 'r', 'i'], [['s', 'k', 'a']]),
  (['s', 'k', 'i', 'c', 'u'], [['s', 'k', 'i']]),
  (['s', 'k', 'i', 'j', 'i'], [['s', 'i', 'j']]),
  (['s', 'k', 'i', 'n', 'a'], [['k', 'i', 'n']]),
  (['s', 'k', 'o', 'r', 'i'], [['s', 'k', 'o']]),
  (['s', 'k', 'o', 't', 'o'], [['k', 'o', 't'], ['k', 'o', '\'', 'o']]),
  (['s', 'k', 'u', 'r', 'o'], [['k', 'u', '\'', 'o']]),
  (['s', 'l', 'a', 'b', 'u'], [['s', 'a', 'u']]),
  (['s', 'l', 'a', 'k', 'a'], []),
  (['s', 'l', 'a', 'm', 'i'], [])]

/-- `jvocuhadju.c:104-652`: each entry is `gismu[i]` with `rafsi[start_indices[i]]`, ...,
`rafsi[start_indices[i]+n_rafsi[i]-1]`, entries 1100-1199. -/
def wordTable11 : List (Word × List Word) := [
  (['s', 'l', 'a', 'n', 'u'], []),
  (['s', 'l', 'a', 'r', 'i'], [['s', 'a', 'r']]),
  (['s', 'l', 'a', 's', 'i'], [['l', 'a', 's']]),
  (['s', 'l', 'i', 'g', 'u'], [['l', 'i', 'g']]),
  (['s', 'l', 'i', 'l', 'u'], [['s', 'l', 'i']]),
  (['s', 'l', 'i', 'r', 'i'], []),
  (['s', 'l', 'o', 'v', 'o'], [['l', 'o', 'v'], ['l', 'o', '\'', 'o']]),
  (['s', 'l', 'u', 'j', 'i'], [['s', 'l', 'u']]),
  (['s', 'l', 'u', 'n', 'i'], []),
  (['s', 'm', 'a', 'c', 'u'], []),
  (['s', 'm', 'a', 'd', 'i'], []),
  (['s', 'm', 'a', 'j', 'i'], [['s', 'm', 'a']]),
  (['s', 'm', 'a', 'n', 'i'], []),
  (['s', 'm', 'o', 'k', 'a'], [['s', 'm', 'o']]),
  (['s', 'm', 'u', 'c', 'i'], [['m', 'u', 'c']]),
  (['s', 'm', 'u', 'n', 'i'], [['m', 'u', 'n'], ['s', 'm', 'u']]),
  (['s', 'n', 'a', 'd', 'a'], [['s', 'a', 'd']]),
  (['s', 'n', 'a', 'n', 'u'], [['n', 'a', 'n']]),
  (['s', 'n', 'i', 'd', 'u'], [['n', 'i', 'd']]),
  (['s', 'n', 'i', 'm', 'e'], [['s', 'i', '\'', 'e']]),
  (['s', 'n', 'i', 'p', 'a'], [['n', 'i', 'p']]),
  (['s', 'n', 'u', 'j', 'i'], [['n', 'u', 'j']]),
  (['s', 'n', 'u', 'r', 'a'], [['n', 'u', 'r'], ['n', 'u', '\'', 'a']]),
  (['s', 'n', 'u', 't', 'i'], [['n', 'u', 't']]),
  (['s', 'o'], [['s', 'o', 'z']]),
  (['s', 'o', '\'', 'a'], [['s', 'o', 'j']]),
  (['s', 'o', '\'', 'e'], [['s', 'o', 'p']]),
  (['s', 'o', '\'', 'i'], [['s', 'o', 'r'], ['s', 'o', '\'', 'i']]),
  (['s', 'o', '\'', 'o'], [['s', 'o', 's']]),
  (['s', 'o', '\'', 'u'], [['s', 'o', 't']]),
  (['s', 'o', 'b', 'd', 'e'], [['s', 'o', 'b'], ['s', 'o', '\'', 'e']]),
  (['s', 'o', 'd', 'n', 'a'], []),
  (['s', 'o', 'd', 'v', 'a'], [['s', 'o', 'd']]),
  (['s', 'o', 'f', 't', 'o'], [['s', 'o', 'f']]),
  (['s', 'o', 'l', 'j', 'i'], [['s', 'l', 'o']]),
  (['s', 'o', 'l', 'r', 'i'], [['s', 'o', 'l']]),
  (['s', 'o', 'm', 'b', 'o'], [['s', 'o', 'm'], ['s', 'o', '\'', 'o']]),
  (['s', 'o', 'n', 'c', 'i'], [['s', 'o', 'n'], ['s', 'o', 'i']]),
  (['s', 'o', 'r', 'c', 'u'], [['s', 'o', 'c'], ['s', 'r', 'o']]),
  (['s', 'o', 'r', 'g', 'u'], [['s', 'o', 'g']]),
  (['s', 'o', 'v', 'd', 'a'], [['s', 'o', 'v'], ['s', 'o', '\'', 'a']]),
  (['s', 'p', 'a', 'j', 'i'], [['p', 'a', 'j']]),
  (['s', 'p', 'a', 'l', 'i'], []),
  (['s', 'p', 'a', 'n', 'o'], [['s', 'a', 'n']]),
  (['s', 'p', 'a', 't', 'i'], [['s', 'p', 'a']]),
  (['s', 'p', 'e', 'n', 'i'], [['s', 'p', 'e']]),
  (['s', 'p', 'i', 's', 'a'], [['s', 'p', 'i']]),
  (['s', 'p', 'i', 't', 'a'], []),
  (['s', 'p', 'o', 'f', 'u'], [['p', 'o', 'f'], ['p', 'o', '\'', 'u']]),
  (['s', 'p', 'o', 'j', 'a'], [['p', 'o', 'j'], ['p', 'o', '\'', 'a']]),
  (['s', 'p', 'u', 'd', 'a'], [['s', 'p', 'u']]),
  (['s', 'p', 'u', 't', 'u'], [['p', 'u', 't'], ['p', 'u', '\'', 'u']]),
  (['s', 'r', 'a', 'j', 'i'], [['r', 'a', 'j']]),
  (['s', 'r', 'a', 'k', 'u'], [['r', 'a', 'k']]),
  (['s', 'r', 'a', 'l', 'o'], []),
  (['s', 'r', 'a', 'n', 'a'], [['r', 'a', '\'', 'a']]),
  (['s', 'r', 'a', 's', 'u'], [['s', 'a', 's']]),
  (['s', 'r', 'e', 'r', 'a'], [['s', 'r', 'e']]),
  (['s', 'r', 'i', 't', 'o'], []),
  (['s', 'r', 'u', 'm', 'a'], [['r', 'u', '\'', 'a']]),
  (['s', 'r', 'u', 'r', 'i'], [['r', 'u', 'r'], ['s', 'r', 'u']]),
  (['s', 't', 'a', 'c', 'e'], [['s', 'a', 'c']]),
  (['s', 't', 'a', 'g', 'i'], []),
  (['s', 't', 'a', 'k', 'u'], [['t', 'a', 'k']]),
  (['s', 't', 'a', 'l', 'i'], [['s', 't', 'a']]),
  (['s', 't', 'a', 'n', 'i'], []),
  (['s', 't', 'a', 'p', 'a'], [['t', 'a', 'p']]),
  (['s', 't', 'a', 's', 'u'], []),
  (['s', 't', 'a', 't', 'i'], []),
  (['s', 't', 'e', 'b', 'a'], [['s', 'e', 'b']]),
  (['s', 't', 'e', 'c', 'i'], [['t', 'e', 'c'], ['t', 'e', '\'', 'i']]),
  (['s', 't', 'e', 'd', 'u'], [['s', 'e', 'd']]),
  (['s', 't', 'e', 'l', 'a'], [['t', 'e', 'l']]),
  (['s', 't', 'e', 'r', 'o'], [['t', 'e', '\'', 'o']]),
  (['s', 't', 'i', 'c', 'i'], [['s', 'i', 'c']]),
  (['s', 't', 'i', 'd', 'i'], [['s', 'i', 'd'], ['t', 'i', '\'', 'i']]),
  (['s', 't', 'i', 'k', 'a'], [['t', 'i', 'k']]),
  (['s', 't', 'i', 'z', 'u'], [['t', 'i', 'z']]),
  (['s', 't', 'o', 'd', 'i'], [['s', 't', 'o']]),
  (['s', 't', 'u', 'n', 'a'], [['s', 'u', 'n']]),
  (['s', 't', 'u', 'r', 'a'], [['t', 'u', 'r'], ['s', 'u', '\'', 'a']]),
  (['s', 't', 'u', 'z', 'i'], [['t', 'u', 'z'], ['s', 't', 'u']]),
  (['s', 'u', '\'', 'e'], [['s', 'u', 'p'], ['s', 'u', '\'', 'e']]),
  (['s', 'u', '\'', 'o'], [['s', 'u', 'z'], ['s', 'u', '\'', 'o']]),
  (['s', 'u', '\'', 'u'], [['s', 'u', 'v']]),
  (['s', 'u', 'c', 't', 'a'], [['s', 'u', 'c']]),
  (['s', 'u', 'd', 'g', 'a'], [['s', 'u', 'd']]),
  (['s', 'u', 'f', 't', 'i'], [['s', 'f', 'u']]),
  (['s', 'u', 'k', 's', 'a'], [['s', 'u', 'k']]),
  (['s', 'u', 'm', 'j', 'i'], [['s', 'u', 'j']]),
  (['s', 'u', 'm', 'n', 'e'], []),
  (['s', 'u', 'm', 't', 'i'], [['s', 'u', 'm'], ['s', 'u', '\'', 'i']]),
  (['s', 'u', 'n', 'g', 'a'], [['s', 'u', 'g']]),
  (['s', 'u', 'n', 'l', 'a'], [['s', 'u', 'l']]),
  (['s', 'u', 'r', 'l', 'a'], [['s', 'u', 'r']]),
  (['s', 'u', 't', 'r', 'a'], [['s', 'u', 't']]),
  (['t', 'a'], [['t', 'a', 'z']]),
  (['t', 'a', 'b', 'n', 'o'], [['t', 'a', 'b']]),
  (['t', 'a', 'b', 'r', 'a'], []),
  (['t', 'a', 'd', 'j', 'i'], [])]

/-- `jvocuhadju.c:104-652`: each entry is `gismu[i]` with `rafsi[start_indices[i]]`, ...,
`rafsi[start_indices[i]+n_rafsi[i]-1]`, entries 1200-1299. -/
def wordTable12 : List (Word × List Word) := [
  (['t', 'a', 'd', 'n', 'i'], [['t', 'a', 'd']]),
  (['t', 'a', 'g', 'j', 'i'], [['t', 'a', 'g']]),
  (['t', 'a', 'l', 's', 'a'], [['t', 'a', 'l']]),
  (['t', 'a', 'm', 'c', 'a'], []),
  (['t', 'a', 'm', 'j', 'i'], [['t', 'a', 'j']]),
  (['t', 'a', 'm', 'n', 'e'], []),
  (['t', 'a', 'n', 'b', 'o'], [['t', 'a', '\'', 'o']]),
  (['t', 'a', 'n', 'c', 'e'], [['t', 'a', 'c']]),
  (['t', 'a', 'n', 'j', 'o'], []),
  (['t', 'a', 'n', 'k', 'o'], []),
  (['t', 'a', 'n', 'r', 'u'], [['t', 'a', 'u']]),
  (['t', 'a', 'n', 's', 'i'], [['t', 'a', 's']]),
  (['t', 'a', 'n', 'x', 'e'], [['t', 'a', 'x'], ['t', 'a', '\'', 'e']]),
  (['t', 'a', 'p', 'l', 'a'], []),
  (['t', 'a', 'r', 'b', 'i'], []),
  (['t', 'a', 'r', 'c', 'i'], [['t', 'a', 'r']]),
  (['t', 'a', 'r', 'l', 'a'], []),
  (['t', 'a', 'r', 'm', 'i'], [['t', 'a', 'm'], ['t', 'a', 'i']]),
  (['t', 'a', 'r', 't', 'i'], [['t', 'r', 'a']]),
  (['t', 'a', 's', 'k', 'e'], []),
  (['t', 'a', 't', 'p', 'i'], [['t', 'a', '\'', 'i']]),
  (['t', 'a', 't', 'r', 'u'], [['t', 'a', 't']]),
  (['t', 'a', 'v', 'l', 'a'], [['t', 'a', 'v'], ['t', 'a', '\'', 'a']]),
  (['t', 'a', 'x', 'f', 'u'], [['t', 'a', 'f'], ['t', 'a', '\'', 'u']]),
  (['t', 'c', 'a', 'c', 'i'], [['c', 'a', 'c']]),
  (['t', 'c', 'a', 'd', 'u'], [['t', 'c', 'a']]),
  (['t', 'c', 'a', 'n', 'a'], []),
  (['t', 'c', 'a', 't', 'i'], []),
  (['t', 'c', 'e', 'n', 'a'], [['t', 'e', 'n']]),
  (['t', 'c', 'i', 'c', 'a'], [['t', 'i', 'c']]),
  (['t', 'c', 'i', 'd', 'u'], [['t', 'i', 'd']]),
  (['t', 'c', 'i', 'k', 'a'], []),
  (['t', 'c', 'i', 'l', 'a'], [['t', 'i', 'l']]),
  (['t', 'c', 'i', 'm', 'a'], [['t', 'i', 'm'], ['t', 'i', '\'', 'a']]),
  (['t', 'c', 'i', 'n', 'i'], []),
  (['t', 'c', 'i', 't', 'a'], []),
  (['t', 'e'], [['t', 'e', 'r']]),
  (['t', 'e', 'm', 'c', 'i'], [['t', 'e', 'm'], ['t', 'e', 'i']]),
  (['t', 'e', 'n', 'f', 'a'], [['t', 'e', 'f']]),
  (['t', 'e', 'n', 'g', 'u'], [['t', 'e', 'g'], ['t', 'e', '\'', 'u']]),
  (['t', 'e', 'r', 'd', 'i'], [['t', 'e', 'd']]),
  (['t', 'e', 'r', 'p', 'a'], [['t', 'e', 'p'], ['t', 'e', '\'', 'a']]),
  (['t', 'e', 'r', 't', 'o'], [['t', 'e', 't']]),
  (['t', 'i'], [['t', 'i', 'f']]),
  (['t', 'i', 'g', 'n', 'i'], [['t', 'i', 'g']]),
  (['t', 'i', 'k', 'p', 'a'], [['t', 'i', 'p']]),
  (['t', 'i', 'l', 'j', 'u'], [['t', 'i', 'j']]),
  (['t', 'i', 'n', 'b', 'e'], [['t', 'i', 'b']]),
  (['t', 'i', 'n', 'c', 'i'], []),
  (['t', 'i', 'n', 's', 'a'], []),
  (['t', 'i', 'r', 'n', 'a'], [['t', 'i', 'n']]),
  (['t', 'i', 'r', 's', 'e'], [['t', 'i', 'r']]),
  (['t', 'i', 'r', 'x', 'u'], []),
  (['t', 'i', 's', 'n', 'a'], [['t', 'i', 's']]),
  (['t', 'i', 't', 'l', 'a'], [['t', 'i', 't']]),
  (['t', 'i', 'v', 'n', 'i'], [['t', 'i', 'v']]),
  (['t', 'i', 'x', 'n', 'u'], [['t', 'i', 'x'], ['t', 'i', '\'', 'u']]),
  (['t', 'o', '\'', 'e'], [['t', 'o', 'l'], ['t', 'o', '\'', 'e']]),
  (['t', 'o', 'k', 'n', 'u'], [['t', 'o', 'k']]),
  (['t', 'o', 'l', 'd', 'i'], [['t', 'o', 'd']]),
  (['t', 'o', 'n', 'g', 'a'], [['t', 'o', 'g'], ['t', 'o', '\'', 'a']]),
  (['t', 'o', 'r', 'd', 'u'], [['t', 'o', 'r'], ['t', 'o', '\'', 'u']]),
  (['t', 'o', 'r', 'n', 'i'], [['t', 'o', 'n'], ['t', 'o', '\'', 'i']]),
  (['t', 'r', 'a', 'j', 'i'], [['r', 'a', 'i']]),
  (['t', 'r', 'a', 'n', 'o'], []),
  (['t', 'r', 'a', 't', 'i'], []),
  (['t', 'r', 'e', 'n', 'e'], [['r', 'e', 'n'], ['r', 'e', '\'', 'e']]),
  (['t', 'r', 'i', 'c', 'u'], [['r', 'i', 'c']]),
  (['t', 'r', 'i', 'n', 'a'], [['t', 'r', 'i']]),
  (['t', 'r', 'i', 'x', 'e'], [['r', 'i', 'x'], ['t', 'i', '\'', 'e']]),
  (['t', 'r', 'o', 'c', 'i'], [['t', 'o', 'c'], ['t', 'o', 'i']]),
  (['t', 's', 'a', 'l', 'i'], [['t', 's', 'a']]),
  (['t', 's', 'a', 'n', 'i'], [['t', 'a', 'n']]),
  (['t', 's', 'a', 'p', 'i'], []),
  (['t', 's', 'i', 'j', 'u'], [['t', 's', 'i']]),
  (['t', 's', 'i', 'n', 'a'], [['s', 'i', 'n']]),
  (['t', 'u'], [['t', 'u', 'f']]),
  (['t', 'u', 'b', 'n', 'u'], [['t', 'u', '\'', 'u']]),
  (['t', 'u', 'g', 'n', 'i'], [['t', 'u', 'g'], ['t', 'u', '\'', 'i']]),
  (['t', 'u', 'j', 'l', 'i'], [['t', 'u', 'j']]),
  (['t', 'u', 'm', 'l', 'a'], [['t', 'u', 'm'], ['t', 'u', '\'', 'a']]),
  (['t', 'u', 'n', 'b', 'a'], [['t', 'u', 'b']]),
  (['t', 'u', 'n', 'k', 'a'], [['t', 'u', 'k']]),
  (['t', 'u', 'n', 'l', 'o'], [['t', 'u', 'l'], ['t', 'u', '\'', 'o']]),
  (['t', 'u', 'n', 't', 'a'], [['t', 'u', 'n']]),
  (['t', 'u', 'p', 'l', 'e'], [['t', 'u', 'p'], ['t', 'u', '\'', 'e']]),
  (['t', 'u', 'r', 'n', 'i'], [['t', 'r', 'u']]),
  (['t', 'u', 't', 'c', 'i'], [['t', 'c', 'i']]),
  (['t', 'u', 't', 'r', 'a'], [['t', 'u', 't']]),
  (['v', 'a'], [['v', 'a', 'z']]),
  (['v', 'a', 'c', 'r', 'i'], [['v', 'a', 'r']]),
  (['v', 'a', 'j', 'n', 'i'], [['v', 'a', 'j'], ['v', 'a', 'i']]),
  (['v', 'a', 'l', 's', 'i'], [['v', 'a', 'l'], ['v', 'l', 'a']]),
  (['v', 'a', 'm', 'j', 'i'], [['v', 'a', 'm'], ['v', 'a', '\'', 'i']]),
  (['v', 'a', 'm', 't', 'u'], [['v', 'a', 't']]),
  (['v', 'a', 'n', 'b', 'i'], [['v', 'a', 'b']]),
  (['v', 'a', 'n', 'c', 'i'], [['v', 'a', 'c']]),
  (['v', 'a', 'n', 'j', 'u'], [['v', 'a', 'n']]),
  (['v', 'a', 's', 'r', 'u'], [['v', 'a', 's'], ['v', 'a', 'u']]),
  (['v', 'a', 's', 'x', 'u'], [['v', 'a', 'x'], ['v', 'a', '\'', 'u']])]

/-- `jvocuhadju.c:104-652`: each entry is `gismu[i]` with `rafsi[start_indices[i]]`, ...,
`rafsi[start_indices[i]+n_rafsi[i]-1]`, entries 1300-1399. -/
def wordTable13 : List (Word × List Word) := [
  (['v', 'e'], [['v', 'e', 'l']]),
  (['v', 'e', '\'', 'e'], [['v', 'e', '\'', 'e']]),
  (['v', 'e', 'c', 'n', 'u'], [['v', 'e', 'n'], ['v', 'e', '\'', 'u']]),
  (['v', 'e', 'n', 'f', 'u'], [['v', 'e', 'f']]),
  (['v', 'e', 'n', 's', 'a'], [['v', 'e', 's']]),
  (['v', 'e', 'r', 'b', 'a'], [['v', 'e', 'r'], ['v', 'e', '\'', 'a']]),
  (['v', 'i'], [['v', 'i', 'z']]),
  (['v', 'i', 'b', 'n', 'a'], [['v', 'i', 'b']]),
  (['v', 'i', 'd', 'n', 'i'], []),
  (['v', 'i', 'd', 'r', 'u'], [['v', 'i', 'r']]),
  (['v', 'i', 'f', 'n', 'e'], [['v', 'i', 'f']]),
  (['v', 'i', 'k', 'm', 'i'], [['v', 'i', 'm'], ['v', 'i', '\'', 'i']]),
  (['v', 'i', 'k', 'n', 'u'], [['v', 'i', 'k']]),
  (['v', 'i', 'm', 'c', 'u'], [['v', 'i', 'c'], ['v', 'i', '\'', 'u']]),
  (['v', 'i', 'n', 'd', 'u'], [['v', 'i', 'd']]),
  (['v', 'i', 'n', 'j', 'i'], [['v', 'i', 'j']]),
  (['v', 'i', 'p', 's', 'i'], [['v', 'i', 'p']]),
  (['v', 'i', 'r', 'n', 'u'], [['v', 'r', 'i']]),
  (['v', 'i', 's', 'k', 'a'], [['v', 'i', 's'], ['v', 'i', '\'', 'a']]),
  (['v', 'i', 't', 'c', 'i'], [['v', 'i', 't']]),
  (['v', 'i', 't', 'k', 'e'], [['v', 'i', '\'', 'e']]),
  (['v', 'i', 't', 'n', 'o'], [['v', 'i', '\'', 'o']]),
  (['v', 'l', 'a', 'g', 'i'], [['l', 'a', 'g']]),
  (['v', 'l', 'i', 'l', 'e'], [['v', 'i', 'l']]),
  (['v', 'l', 'i', 'n', 'a'], []),
  (['v', 'l', 'i', 'p', 'a'], [['v', 'l', 'i']]),
  (['v', 'o'], [['v', 'o', 'n']]),
  (['v', 'o', 'f', 'l', 'i'], [['v', 'o', 'l'], ['v', 'o', 'i']]),
  (['v', 'o', 'k', 's', 'a'], [['v', 'o', 'k'], ['v', 'o', '\'', 'a']]),
  (['v', 'o', 'r', 'm', 'e'], [['v', 'o', 'r'], ['v', 'r', 'o']]),
  (['v', 'r', 'a', 'g', 'a'], [['v', 'r', 'a']]),
  (['v', 'r', 'e', 'j', 'i'], [['r', 'e', 'j'], ['v', 'e', 'i']]),
  (['v', 'r', 'e', 't', 'a'], [['v', 'r', 'e']]),
  (['v', 'r', 'i', 'c', 'i'], []),
  (['v', 'r', 'u', 'd', 'e'], [['v', 'u', 'd'], ['v', 'u', '\'', 'e']]),
  (['v', 'r', 'u', 's', 'i'], [['v', 'u', 's'], ['v', 'u', '\'', 'i']]),
  (['v', 'u'], [['v', 'u', 'z']]),
  (['v', 'u', 'k', 'r', 'o'], [['v', 'u', 'r'], ['v', 'u', '\'', 'o']]),
  (['x', 'a'], [['x', 'a', 'v']]),
  (['x', 'a', 'b', 'j', 'u'], [['x', 'a', '\'', 'u']]),
  (['x', 'a', 'd', 'b', 'a'], [['x', 'a', 'b']]),
  (['x', 'a', 'd', 'n', 'i'], [['x', 'a', 'd']]),
  (['x', 'a', 'g', 'j', 'i'], []),
  (['x', 'a', 'g', 'r', 'i'], []),
  (['x', 'a', 'j', 'm', 'i'], [['x', 'a', 'm']]),
  (['x', 'a', 'k', 's', 'u'], [['x', 'a', 'k']]),
  (['x', 'a', 'l', 'b', 'o'], []),
  (['x', 'a', 'l', 'k', 'a'], [['x', 'a', 'l']]),
  (['x', 'a', 'l', 'n', 'i'], []),
  (['x', 'a', 'm', 'g', 'u'], [['x', 'a', 'g'], ['x', 'a', 'u']]),
  (['x', 'a', 'm', 'p', 'o'], [['x', 'a', 'p'], ['x', 'a', '\'', 'o']]),
  (['x', 'a', 'm', 's', 'i'], [['x', 'a', 's']]),
  (['x', 'a', 'n', 'c', 'e'], [['x', 'a', 'n'], ['x', 'a', '\'', 'e']]),
  (['x', 'a', 'n', 'k', 'a'], []),
  (['x', 'a', 'n', 'r', 'i'], [['x', 'a', 'r']]),
  (['x', 'a', 'n', 't', 'o'], []),
  (['x', 'a', 'r', 'c', 'i'], [['x', 'a', 'c'], ['x', 'a', '\'', 'i']]),
  (['x', 'a', 'r', 'j', 'u'], [['x', 'a', 'j']]),
  (['x', 'a', 'r', 'n', 'u'], []),
  (['x', 'a', 's', 'l', 'i'], []),
  (['x', 'a', 's', 'n', 'e'], []),
  (['x', 'a', 't', 'r', 'a'], [['x', 'a', '\'', 'a']]),
  (['x', 'a', 't', 's', 'i'], [['x', 'a', 't']]),
  (['x', 'a', 'z', 'd', 'o'], [['x', 'a', 'z'], ['z', 'd', 'o']]),
  (['x', 'e'], [['x', 'e', 'l']]),
  (['x', 'e', 'b', 'n', 'i'], [['x', 'e', 'n'], ['x', 'e', 'i']]),
  (['x', 'e', 'b', 'r', 'o'], [['x', 'e', 'b'], ['b', 'r', 'o']]),
  (['x', 'e', 'c', 't', 'o'], [['x', 'e', 't'], ['c', 't', 'o']]),
  (['x', 'e', 'd', 'j', 'a'], [['x', 'e', 'j'], ['x', 'e', '\'', 'a']]),
  (['x', 'e', 'k', 'r', 'i'], [['x', 'e', 'k'], ['x', 'e', '\'', 'i']]),
  (['x', 'e', 'l', 's', 'o'], [['x', 'e', 's']]),
  (['x', 'e', 'n', 'd', 'o'], [['x', 'e', 'd'], ['x', 'e', '\'', 'o']]),
  (['x', 'e', 'n', 'r', 'u'], [['x', 'e', 'r'], ['x', 'e', '\'', 'u']]),
  (['x', 'e', 'x', 's', 'o'], [['x', 'e', 'x']]),
  (['x', 'i', 'n', 'd', 'o'], [['x', 'i', 'n']]),
  (['x', 'i', 'n', 'm', 'o'], [['x', 'i', 'm']]),
  (['x', 'i', 'r', 'm', 'a'], [['x', 'i', 'r'], ['x', 'i', '\'', 'a']]),
  (['x', 'i', 's', 'l', 'u'], [['x', 'i', 'l'], ['x', 'i', '\'', 'u']]),
  (['x', 'i', 's', 'p', 'o'], [['x', 'i', 'p']]),
  (['x', 'l', 'a', 'l', 'i'], [['x', 'l', 'a']]),
  (['x', 'l', 'u', 'r', 'a'], [['x', 'l', 'u']]),
  (['x', 'o', 't', 'l', 'i'], [['x', 'o', 'l'], ['x', 'o', 'i']]),
  (['x', 'r', 'a', 'b', 'o'], [['r', 'a', 'b']]),
  (['x', 'r', 'a', 'n', 'i'], [['x', 'a', 'i']]),
  (['x', 'r', 'i', 's', 'o'], [['x', 'i', 's'], ['x', 'i', '\'', 'o']]),
  (['x', 'r', 'u', 'b', 'a'], [['x', 'u', 'b']]),
  (['x', 'r', 'u', 'k', 'i'], [['x', 'u', 'k']]),
  (['x', 'r', 'u', 'l', 'a'], [['r', 'u', 'l']]),
  (['x', 'r', 'u', 't', 'i'], [['x', 'r', 'u']]),
  (['x', 'u', 'k', 'm', 'i'], [['x', 'u', 'm'], ['x', 'u', '\'', 'i']]),
  (['x', 'u', 'n', 'r', 'e'], [['x', 'u', 'n'], ['x', 'u', '\'', 'e']]),
  (['x', 'u', 'r', 'd', 'o'], [['x', 'u', 'r'], ['x', 'u', '\'', 'o']]),
  (['x', 'u', 's', 'r', 'a'], [['x', 'u', 's'], ['x', 'u', '\'', 'a']]),
  (['x', 'u', 't', 'l', 'a'], [['x', 'u', 'l']]),
  (['z', 'a', '\'', 'i'], [['z', 'a', 'z']]),
  (['z', 'a', '\'', 'o'], [['z', 'a', '\'', 'o']]),
  (['z', 'a', 'b', 'n', 'a'], [['z', 'a', 'n'], ['z', 'a', '\'', 'a']]),
  (['z', 'a', 'j', 'b', 'a'], [['z', 'a', 'j']]),
  (['z', 'a', 'l', 'v', 'i'], [['z', 'a', 'l']]),
  (['z', 'a', 'n', 'r', 'u'], [['z', 'a', 'r'], ['z', 'a', 'u']])]

/-- `jvocuhadju.c:104-652`: each entry is `gismu[i]` with `rafsi[start_indices[i]]`, ...,
`rafsi[start_indices[i]+n_rafsi[i]-1]`, entries 1400-1435. -/
def wordTable14 : List (Word × List Word) := [
  (['z', 'a', 'r', 'c', 'i'], [['z', 'a', 'c'], ['z', 'a', 'i']]),
  (['z', 'a', 'r', 'g', 'u'], [['z', 'a', 'g'], ['z', 'a', '\'', 'u']]),
  (['z', 'a', 's', 'n', 'i'], [['z', 'a', 's']]),
  (['z', 'a', 's', 't', 'i'], [['z', 'a', 't'], ['z', 'a', '\'', 'i']]),
  (['z', 'b', 'a', 'b', 'u'], [['b', 'a', 'b']]),
  (['z', 'b', 'a', 'n', 'i'], []),
  (['z', 'b', 'a', 's', 'u'], [['z', 'b', 'a']]),
  (['z', 'b', 'e', 'p', 'i'], [['z', 'b', 'e']]),
  (['z', 'd', 'a', 'n', 'i'], [['z', 'd', 'a']]),
  (['z', 'd', 'i', 'l', 'e'], [['z', 'd', 'i']]),
  (['z', 'e'], [['z', 'e', 'l']]),
  (['z', 'e', '\'', 'e'], [['z', 'e', '\'', 'e']]),
  (['z', 'e', '\'', 'o'], [['z', 'e', 'v'], ['z', 'e', '\'', 'o']]),
  (['z', 'e', 'k', 'r', 'i'], [['z', 'e', 'r'], ['z', 'e', 'i']]),
  (['z', 'e', 'n', 'b', 'a'], [['z', 'e', 'n'], ['z', 'e', '\'', 'a']]),
  (['z', 'e', 'p', 't', 'i'], [['z', 'e', 'p']]),
  (['z', 'e', 't', 'r', 'o'], [['z', 'e', 't']]),
  (['z', 'g', 'a', 'n', 'a'], [['z', 'g', 'a']]),
  (['z', 'g', 'i', 'k', 'e'], [['z', 'g', 'i'], ['g', 'i', '\'', 'e']]),
  (['z', 'i', '\'', 'o'], [['z', 'i', 'l']]),
  (['z', 'i', 'f', 'r', 'e'], [['z', 'i', 'f'], ['z', 'i', '\'', 'e']]),
  (['z', 'i', 'n', 'k', 'i'], [['z', 'i', 'n'], ['z', 'i', '\'', 'i']]),
  (['z', 'i', 'r', 'p', 'u'], [['z', 'i', 'r'], ['z', 'i', '\'', 'u']]),
  (['z', 'i', 'v', 'l', 'e'], [['z', 'i', 'v'], ['v', 'l', 'e']]),
  (['z', 'm', 'a', 'd', 'u'], [['z', 'm', 'a'], ['m', 'a', 'u']]),
  (['z', 'm', 'i', 'k', 'u'], [['z', 'm', 'i']]),
  (['z', 'o', '\'', 'a'], [['z', 'o', 'n'], ['z', 'o', '\'', 'a']]),
  (['z', 'o', '\'', 'i'], [['z', 'o', 'r'], ['z', 'o', '\'', 'i']]),
  (['z', 'u', '\'', 'o'], [['z', 'u', 'm']]),
  (['z', 'u', 'k', 't', 'e'], [['z', 'u', 'k'], ['z', 'u', '\'', 'e']]),
  (['z', 'u', 'm', 'r', 'i'], [['z', 'm', 'u']]),
  (['z', 'u', 'n', 'g', 'i'], [['z', 'u', 'g']]),
  (['z', 'u', 'n', 'l', 'e'], [['z', 'u', 'l']]),
  (['z', 'u', 'n', 't', 'i'], [['z', 'u', 'n'], ['z', 'u', '\'', 'i']]),
  (['z', 'u', 't', 's', 'e'], [['z', 'u', 't'], ['t', 's', 'e']]),
  (['z', 'v', 'a', 't', 'i'], [['z', 'v', 'a']])]

/-- `jvocuhadju.c:104-652`: each entry is `gismu[i]` with `rafsi[start_indices[i]]`, ...,
`rafsi[start_indices[i]+n_rafsi[i]-1]`. -/
def wordTable : List (Word × List Word) :=
  wordTable0 ++ wordTable1 ++ wordTable2 ++ wordTable3 ++ wordTable4 ++ wordTable5 ++
  wordTable6 ++ wordTable7 ++ wordTable8 ++ wordTable9 ++ wordTable10 ++ wordTable11 ++
  wordTable12 ++ wordTable13 ++ wordTable14

/-- `canonluj.inc` as made by `canonluj.pl:8-27` from `reduced_gismu`: rafsi and word, sorted by rafsi, entries 0-99. -/
def r2g0 : List (Word × Word) := [
  (['b', 'a', '\'', 'a'], ['b', 'a', 'r', 'n', 'a']),
  (['b', 'a', '\'', 'e'], ['b', 'a', 'l', 'r', 'e']),
  (['b', 'a', '\'', 'i'], ['b', 'a', 'n', 'l', 'i']),
  (['b', 'a', '\'', 'o'], ['b', 'a', 'n', 'r', 'o']),
  (['b', 'a', '\'', 'u'], ['b', 'a', 'c', 'r', 'u']),
  (['b', 'a', 'b'], ['z', 'b', 'a', 'b', 'u']),
  (['b', 'a', 'c'], ['b', 'a', 'n', 'c', 'u']),
  (['b', 'a', 'c', 'r'], ['b', 'a', 'c', 'r', 'u']),
  (['b', 'a', 'd'], ['b', 'a', 'n', 'd', 'u']),
  (['b', 'a', 'd', 'n'], ['b', 'a', 'd', 'n', 'a']),
  (['b', 'a', 'd', 'r'], ['b', 'a', 'd', 'r', 'i']),
  (['b', 'a', 'f'], ['b', 'a', 'k', 'f', 'u']),
  (['b', 'a', 'g'], ['b', 'a', 'r', 'g', 'u']),
  (['b', 'a', 'i'], ['b', 'a', 'p', 'l', 'i']),
  (['b', 'a', 'j'], ['b', 'a', 'j', 'r', 'a']),
  (['b', 'a', 'j', 'r'], ['b', 'a', 'j', 'r', 'a']),
  (['b', 'a', 'k'], ['b', 'a', 'k', 'n', 'i']),
  (['b', 'a', 'k', 'f'], ['b', 'a', 'k', 'f', 'u']),
  (['b', 'a', 'k', 'n'], ['b', 'a', 'k', 'n', 'i']),
  (['b', 'a', 'k', 'r'], ['b', 'a', 'k', 'r', 'i']),
  (['b', 'a', 'k', 't'], ['b', 'a', 'k', 't', 'u']),
  (['b', 'a', 'l'], ['b', 'a', 'n', 'l', 'i']),
  (['b', 'a', 'l', 'j'], ['b', 'a', 'l', 'j', 'i']),
  (['b', 'a', 'l', 'n'], ['b', 'a', 'l', 'n', 'i']),
  (['b', 'a', 'l', 'r'], ['b', 'a', 'l', 'r', 'e']),
  (['b', 'a', 'l', 'v'], ['b', 'a', 'l', 'v', 'i']),
  (['b', 'a', 'm'], ['j', 'b', 'a', 'm', 'a']),
  (['b', 'a', 'n'], ['b', 'a', 'n', 'g', 'u']),
  (['b', 'a', 'n', 'c'], ['b', 'a', 'n', 'c', 'u']),
  (['b', 'a', 'n', 'd'], ['b', 'a', 'n', 'd', 'u']),
  (['b', 'a', 'n', 'f'], ['b', 'a', 'n', 'f', 'i']),
  (['b', 'a', 'n', 'g'], ['b', 'a', 'n', 'g', 'u']),
  (['b', 'a', 'n', 'l'], ['b', 'a', 'n', 'l', 'i']),
  (['b', 'a', 'n', 'r'], ['b', 'a', 'n', 'r', 'o']),
  (['b', 'a', 'n', 'x'], ['b', 'a', 'n', 'x', 'a']),
  (['b', 'a', 'n', 'z'], ['b', 'a', 'n', 'z', 'u']),
  (['b', 'a', 'p'], ['b', 'a', 'p', 'l', 'i']),
  (['b', 'a', 'p', 'l'], ['b', 'a', 'p', 'l', 'i']),
  (['b', 'a', 'r'], ['b', 'a', 'r', 't', 'u']),
  (['b', 'a', 'r', 'd'], ['b', 'a', 'r', 'd', 'a']),
  (['b', 'a', 'r', 'g'], ['b', 'a', 'r', 'g', 'u']),
  (['b', 'a', 'r', 'j'], ['b', 'a', 'r', 'j', 'a']),
  (['b', 'a', 'r', 'n'], ['b', 'a', 'r', 'n', 'a']),
  (['b', 'a', 'r', 't'], ['b', 'a', 'r', 't', 'u']),
  (['b', 'a', 's'], ['b', 'a', 's', 't', 'i']),
  (['b', 'a', 's', 'n'], ['b', 'a', 's', 'n', 'a']),
  (['b', 'a', 's', 't'], ['b', 'a', 's', 't', 'i']),
  (['b', 'a', 't'], ['b', 'a', 't', 'c', 'i']),
  (['b', 'a', 't', 'c'], ['b', 'a', 't', 'c', 'i']),
  (['b', 'a', 't', 'k'], ['b', 'a', 't', 'k', 'e']),
  (['b', 'a', 'u'], ['b', 'a', 'n', 'g', 'u']),
  (['b', 'a', 'v'], ['b', 'a', 'l', 'v', 'i']),
  (['b', 'a', 'v', 'm'], ['b', 'a', 'v', 'm', 'i']),
  (['b', 'a', 'x'], ['b', 'a', 'n', 'x', 'a']),
  (['b', 'a', 'x', 's'], ['b', 'a', 'x', 's', 'o']),
  (['b', 'a', 'z'], ['b', 'a', 'n', 'z', 'u']),
  (['b', 'e', '\'', 'a'], ['b', 'e', 'r', 's', 'a']),
  (['b', 'e', '\'', 'e'], ['b', 'e', 'n', 'd', 'e']),
  (['b', 'e', '\'', 'i'], ['b', 'e', 'n', 'j', 'i']),
  (['b', 'e', '\'', 'o'], ['b', 'e', 'm', 'r', 'o']),
  (['b', 'e', '\'', 'u'], ['b', 'e', 't', 'f', 'u']),
  (['b', 'e', 'b'], ['b', 'e', 'b', 'n', 'a']),
  (['b', 'e', 'b', 'n'], ['b', 'e', 'b', 'n', 'a']),
  (['b', 'e', 'd'], ['b', 'e', 'n', 'd', 'e']),
  (['b', 'e', 'f'], ['b', 'e', 't', 'f', 'u']),
  (['b', 'e', 'g'], ['b', 'e', 'n', 'g', 'o']),
  (['b', 'e', 'i'], ['b', 'e', 'v', 'r', 'i']),
  (['b', 'e', 'j'], ['b', 'e', 'n', 'j', 'i']),
  (['b', 'e', 'm'], ['b', 'e', 'm', 'r', 'o']),
  (['b', 'e', 'm', 'r'], ['b', 'e', 'm', 'r', 'o']),
  (['b', 'e', 'n'], ['b', 'e', 's', 'n', 'a']),
  (['b', 'e', 'n', 'd'], ['b', 'e', 'n', 'd', 'e']),
  (['b', 'e', 'n', 'g'], ['b', 'e', 'n', 'g', 'o']),
  (['b', 'e', 'n', 'j'], ['b', 'e', 'n', 'j', 'i']),
  (['b', 'e', 'r'], ['b', 'e', 'r', 't', 'i']),
  (['b', 'e', 'r', 's'], ['b', 'e', 'r', 's', 'a']),
  (['b', 'e', 'r', 't'], ['b', 'e', 'r', 't', 'i']),
  (['b', 'e', 's'], ['b', 'e', 'r', 's', 'a']),
  (['b', 'e', 's', 'n'], ['b', 'e', 's', 'n', 'a']),
  (['b', 'e', 't'], ['b', 'e', 't', 'r', 'i']),
  (['b', 'e', 't', 'f'], ['b', 'e', 't', 'f', 'u']),
  (['b', 'e', 't', 'r'], ['b', 'e', 't', 'r', 'i']),
  (['b', 'e', 'v'], ['b', 'e', 'v', 'r', 'i']),
  (['b', 'e', 'v', 'r'], ['b', 'e', 'v', 'r', 'i']),
  (['b', 'i', '\'', 'a'], ['b', 'i', 'l', 'm', 'a']),
  (['b', 'i', '\'', 'e'], ['b', 'r', 'i', 'f', 'e']),
  (['b', 'i', '\'', 'i'], ['j', 'b', 'i', 'n', 'i']),
  (['b', 'i', '\'', 'o'], ['b', 'i', 'n', 'x', 'o']),
  (['b', 'i', '\'', 'u'], ['b', 'i', 't', 'm', 'u']),
  (['b', 'i', 'c'], ['b', 'i', 'f', 'c', 'e']),
  (['b', 'i', 'd'], ['b', 'i', 'n', 'd', 'o']),
  (['b', 'i', 'd', 'j'], ['b', 'i', 'd', 'j', 'u']),
  (['b', 'i', 'f'], ['b', 'r', 'i', 'f', 'e']),
  (['b', 'i', 'f', 'c'], ['b', 'i', 'f', 'c', 'e']),
  (['b', 'i', 'g'], ['b', 'i', 'l', 'g', 'a']),
  (['b', 'i', 'j'], ['b', 'r', 'i', 'j', 'u']),
  (['b', 'i', 'k'], ['b', 'i', 'k', 'l', 'a']),
  (['b', 'i', 'k', 'l'], ['b', 'i', 'k', 'l', 'a']),
  (['b', 'i', 'l'], ['b', 'i', 'l', 'n', 'i']),
  (['b', 'i', 'l', 'g'], ['b', 'i', 'l', 'g', 'a'])]

/-- `canonluj.inc` as made by `canonluj.pl:8-27` from `reduced_gismu`: rafsi and word, sorted by rafsi, entries 100-199. -/
def r2g1 : List (Word × Word) := [
  (['b', 'i', 'l', 'm'], ['b', 'i', 'l', 'm', 'a']),
  (['b', 'i', 'l', 'n'], ['b', 'i', 'l', 'n', 'i']),
  (['b', 'i', 'm'], ['b', 'i', 't', 'm', 'u']),
  (['b', 'i', 'n'], ['j', 'b', 'i', 'n', 'i']),
  (['b', 'i', 'n', 'd'], ['b', 'i', 'n', 'd', 'o']),
  (['b', 'i', 'n', 'r'], ['b', 'i', 'n', 'r', 'a']),
  (['b', 'i', 'n', 'x'], ['b', 'i', 'n', 'x', 'o']),
  (['b', 'i', 'r'], ['b', 'i', 'r', 'k', 'a']),
  (['b', 'i', 'r', 'j'], ['b', 'i', 'r', 'j', 'e']),
  (['b', 'i', 'r', 'k'], ['b', 'i', 'r', 'k', 'a']),
  (['b', 'i', 'r', 't'], ['b', 'i', 'r', 't', 'i']),
  (['b', 'i', 's'], ['b', 'i', 's', 'l', 'i']),
  (['b', 'i', 's', 'l'], ['b', 'i', 's', 'l', 'i']),
  (['b', 'i', 't'], ['b', 'i', 'r', 't', 'i']),
  (['b', 'i', 't', 'm'], ['b', 'i', 't', 'm', 'u']),
  (['b', 'i', 'v'], ['b', 'i']),
  (['b', 'i', 'x'], ['b', 'i', 'n', 'x', 'o']),
  (['b', 'i', 'z'], ['b', 'i', '\'', 'i']),
  (['b', 'l', 'a'], ['b', 'l', 'a', 'n', 'u']),
  (['b', 'l', 'a', 'b'], ['b', 'l', 'a', 'b', 'i']),
  (['b', 'l', 'a', 'c'], ['b', 'l', 'a', 'c', 'i']),
  (['b', 'l', 'a', 'n'], ['b', 'l', 'a', 'n', 'u']),
  (['b', 'l', 'e'], ['r', 'u', 'b', 'l', 'e']),
  (['b', 'l', 'i'], ['b', 'l', 'i', 'k', 'u']),
  (['b', 'l', 'i', 'k'], ['b', 'l', 'i', 'k', 'u']),
  (['b', 'l', 'o'], ['b', 'l', 'o', 't', 'i']),
  (['b', 'l', 'o', 't'], ['b', 'l', 'o', 't', 'i']),
  (['b', 'l', 'u'], ['c', 'i', 'b', 'l', 'u']),
  (['b', 'o', '\'', 'a'], ['b', 'o', 'x', 'n', 'a']),
  (['b', 'o', '\'', 'e'], ['b', 'r', 'o', 'd', 'e']),
  (['b', 'o', '\'', 'i'], ['b', 'o', 't', 'p', 'i']),
  (['b', 'o', '\'', 'o'], ['b', 'o', 'x', 'f', 'o']),
  (['b', 'o', '\'', 'u'], ['b', 'o', 'n', 'g', 'u']),
  (['b', 'o', 'f'], ['b', 'o', 'x', 'f', 'o']),
  (['b', 'o', 'g'], ['b', 'o', 'n', 'g', 'u']),
  (['b', 'o', 'i'], ['b', 'o', 'l', 'c', 'i']),
  (['b', 'o', 'l'], ['b', 'o', 'l', 'c', 'i']),
  (['b', 'o', 'l', 'c'], ['b', 'o', 'l', 'c', 'i']),
  (['b', 'o', 'n'], ['b', 'o', 'x', 'n', 'a']),
  (['b', 'o', 'n', 'g'], ['b', 'o', 'n', 'g', 'u']),
  (['b', 'o', 'r'], ['b', 'o']),
  (['b', 'o', 't'], ['b', 'o', 't', 'p', 'i']),
  (['b', 'o', 't', 'p'], ['b', 'o', 't', 'p', 'i']),
  (['b', 'o', 'x', 'f'], ['b', 'o', 'x', 'f', 'o']),
  (['b', 'o', 'x', 'n'], ['b', 'o', 'x', 'n', 'a']),
  (['b', 'r', 'a'], ['b', 'a', 'r', 'd', 'a']),
  (['b', 'r', 'a', 'd'], ['b', 'r', 'a', 'd', 'i']),
  (['b', 'r', 'a', 't'], ['b', 'r', 'a', 't', 'u']),
  (['b', 'r', 'a', 'z'], ['b', 'r', 'a', 'z', 'o']),
  (['b', 'r', 'e'], ['b', 'r', 'e', 'd', 'i']),
  (['b', 'r', 'e', 'd'], ['b', 'r', 'e', 'd', 'i']),
  (['b', 'r', 'i'], ['b', 'r', 'i', 'd', 'i']),
  (['b', 'r', 'i', 'd'], ['b', 'r', 'i', 'd', 'i']),
  (['b', 'r', 'i', 'f'], ['b', 'r', 'i', 'f', 'e']),
  (['b', 'r', 'i', 'j'], ['b', 'r', 'i', 'j', 'u']),
  (['b', 'r', 'i', 't'], ['b', 'r', 'i', 't', 'o']),
  (['b', 'r', 'o'], ['x', 'e', 'b', 'r', 'o']),
  (['b', 'r', 'o', 'd'], ['b', 'r', 'o', 'd', 'u']),
  (['b', 'r', 'u'], ['b', 'u', 'r', 'c', 'u']),
  (['b', 'r', 'u', 'n'], ['b', 'r', 'u', 'n', 'a']),
  (['b', 'u', '\'', 'a'], ['b', 'r', 'u', 'n', 'a']),
  (['b', 'u', '\'', 'e'], ['b', 'u', 'n', 'r', 'e']),
  (['b', 'u', '\'', 'i'], ['b', 'u']),
  (['b', 'u', '\'', 'o'], ['b', 'u', 'd', 'j', 'o']),
  (['b', 'u', '\'', 'u'], ['b', 'u', 'k', 'p', 'u']),
  (['b', 'u', 'd'], ['b', 'u', 'n', 'd', 'a']),
  (['b', 'u', 'd', 'j'], ['b', 'u', 'd', 'j', 'o']),
  (['b', 'u', 'j'], ['b', 'u', 'd', 'j', 'o']),
  (['b', 'u', 'k'], ['b', 'u', 'k', 'p', 'u']),
  (['b', 'u', 'k', 'p'], ['b', 'u', 'k', 'p', 'u']),
  (['b', 'u', 'l'], ['b', 'u', '\'', 'a']),
  (['b', 'u', 'm'], ['b', 'u', 'm', 'r', 'u']),
  (['b', 'u', 'm', 'r'], ['b', 'u', 'm', 'r', 'u']),
  (['b', 'u', 'n'], ['b', 'r', 'u', 'n', 'a']),
  (['b', 'u', 'n', 'd'], ['b', 'u', 'n', 'd', 'a']),
  (['b', 'u', 'n', 'r'], ['b', 'u', 'n', 'r', 'e']),
  (['b', 'u', 'r'], ['b', 'u', 'n', 'r', 'e']),
  (['b', 'u', 'r', 'c'], ['b', 'u', 'r', 'c', 'u']),
  (['b', 'u', 'r', 'n'], ['b', 'u', 'r', 'n', 'a']),
  (['b', 'u', 's'], ['b', 'u']),
  (['c', 'a', '\'', 'a'], ['c', 'a', 'b', 'r', 'a']),
  (['c', 'a', '\'', 'e'], ['c', 'a', 't', 'k', 'e']),
  (['c', 'a', '\'', 'i'], ['c', 'a', 't', 'n', 'i']),
  (['c', 'a', '\'', 'o'], ['c', 'a', 'n', 'k', 'o']),
  (['c', 'a', '\'', 'u'], ['c', 'a', 'n', 'l', 'u']),
  (['c', 'a', 'b'], ['c', 'a', 'b', 'n', 'a']),
  (['c', 'a', 'b', 'n'], ['c', 'a', 'b', 'n', 'a']),
  (['c', 'a', 'b', 'r'], ['c', 'a', 'b', 'r', 'a']),
  (['c', 'a', 'c'], ['t', 'c', 'a', 'c', 'i']),
  (['c', 'a', 'c', 'r'], ['c', 'a', 'c', 'r', 'a']),
  (['c', 'a', 'd'], ['c', 'a', 'n', 'd', 'o']),
  (['c', 'a', 'd', 'z'], ['c', 'a', 'd', 'z', 'u']),
  (['c', 'a', 'f'], ['c', 'a', 'f', 'n', 'e']),
  (['c', 'a', 'f', 'n'], ['c', 'a', 'f', 'n', 'e']),
  (['c', 'a', 'g'], ['c', 'a', 'n', 'g', 'e']),
  (['c', 'a', 'i'], ['c', 'a', 'r', 'm', 'i']),
  (['c', 'a', 'j'], ['c', 'a', 'n', 'j', 'a']),
  (['c', 'a', 'k'], ['c', 'a', 'l', 'k', 'u']),
  (['c', 'a', 'k', 'l'], ['c', 'a', 'k', 'l', 'a']),
  (['c', 'a', 'l'], ['c', 'a', 'n', 'l', 'u'])]

/-- `canonluj.inc` as made by `canonluj.pl:8-27` from `reduced_gismu`: rafsi and word, sorted by rafsi, entries 200-299. -/
def r2g2 : List (Word × Word) := [
  (['c', 'a', 'l', 'k'], ['c', 'a', 'l', 'k', 'u']),
  (['c', 'a', 'm'], ['c', 'a', 'r', 'm', 'i']),
  (['c', 'a', 'n'], ['c', 'a', 'n', 'r', 'e']),
  (['c', 'a', 'n', 'c'], ['c', 'a', 'n', 'c', 'i']),
  (['c', 'a', 'n', 'd'], ['c', 'a', 'n', 'd', 'o']),
  (['c', 'a', 'n', 'g'], ['c', 'a', 'n', 'g', 'e']),
  (['c', 'a', 'n', 'j'], ['c', 'a', 'n', 'j', 'a']),
  (['c', 'a', 'n', 'k'], ['c', 'a', 'n', 'k', 'o']),
  (['c', 'a', 'n', 'l'], ['c', 'a', 'n', 'l', 'u']),
  (['c', 'a', 'n', 'p'], ['c', 'a', 'n', 'p', 'a']),
  (['c', 'a', 'n', 'r'], ['c', 'a', 'n', 'r', 'e']),
  (['c', 'a', 'n', 't'], ['c', 'a', 'n', 't', 'i']),
  (['c', 'a', 'p'], ['c', 'k', 'a', 'p', 'e']),
  (['c', 'a', 'r'], ['c', 'a', 'r', 'n', 'a']),
  (['c', 'a', 'r', 'c'], ['c', 'a', 'r', 'c', 'e']),
  (['c', 'a', 'r', 'm'], ['c', 'a', 'r', 'm', 'i']),
  (['c', 'a', 'r', 'n'], ['c', 'a', 'r', 'n', 'a']),
  (['c', 'a', 'r', 't'], ['c', 'a', 'r', 't', 'u']),
  (['c', 'a', 'r', 'v'], ['c', 'a', 'r', 'v', 'i']),
  (['c', 'a', 's'], ['c', 'k', 'a', 's', 'u']),
  (['c', 'a', 's', 'n'], ['c', 'a', 's', 'n', 'u']),
  (['c', 'a', 't'], ['c', 'a', 'r', 't', 'u']),
  (['c', 'a', 't', 'k'], ['c', 'a', 't', 'k', 'e']),
  (['c', 'a', 't', 'l'], ['c', 'a', 't', 'l', 'u']),
  (['c', 'a', 't', 'n'], ['c', 'a', 't', 'n', 'i']),
  (['c', 'a', 't', 'r'], ['c', 'a', 't', 'r', 'a']),
  (['c', 'a', 'u'], ['c', 'l', 'a', 'x', 'u']),
  (['c', 'a', 'v'], ['c', 'a', 'r', 'v', 'i']),
  (['c', 'a', 'x'], ['c', 'a', 'x', 'n', 'o']),
  (['c', 'a', 'x', 'n'], ['c', 'a', 'x', 'n', 'o']),
  (['c', 'a', 'z'], ['c', 'a', '\'', 'a']),
  (['c', 'e', '\'', 'a'], ['c', 'e', 'c', 'l', 'a']),
  (['c', 'e', '\'', 'i'], ['c', 't', 'e', 'k', 'i']),
  (['c', 'e', '\'', 'o'], ['c', 'e', '\'', 'o']),
  (['c', 'e', '\'', 'u'], ['c', 'e', 'c', 'm', 'u']),
  (['c', 'e', 'c'], ['c', 'e']),
  (['c', 'e', 'c', 'l'], ['c', 'e', 'c', 'l', 'a']),
  (['c', 'e', 'c', 'm'], ['c', 'e', 'c', 'm', 'u']),
  (['c', 'e', 'd'], ['c', 'e', 'r', 'd', 'a']),
  (['c', 'e', 'd', 'r'], ['c', 'e', 'd', 'r', 'a']),
  (['c', 'e', 'i'], ['c', 'e', 'v', 'n', 'i']),
  (['c', 'e', 'k'], ['c', 'r', 'e', 'k', 'a']),
  (['c', 'e', 'l'], ['c', 'e', 'c', 'l', 'a']),
  (['c', 'e', 'm'], ['c', 'e', 'c', 'm', 'u']),
  (['c', 'e', 'n'], ['c', 'e', 'n', 't', 'i']),
  (['c', 'e', 'n', 'b'], ['c', 'e', 'n', 'b', 'a']),
  (['c', 'e', 'n', 's'], ['c', 'e', 'n', 's', 'a']),
  (['c', 'e', 'n', 't'], ['c', 'e', 'n', 't', 'i']),
  (['c', 'e', 'r'], ['c', 'e', 'r', 'n', 'i']),
  (['c', 'e', 'r', 'd'], ['c', 'e', 'r', 'd', 'a']),
  (['c', 'e', 'r', 'n'], ['c', 'e', 'r', 'n', 'i']),
  (['c', 'e', 'r', 't'], ['c', 'e', 'r', 't', 'u']),
  (['c', 'e', 's'], ['c', 'e', 'n', 's', 'a']),
  (['c', 'e', 'v'], ['c', 'e', 'v', 'n', 'i']),
  (['c', 'e', 'v', 'n'], ['c', 'e', 'v', 'n', 'i']),
  (['c', 'e', 'z'], ['c', 'e', '\'', 'i']),
  (['c', 'f', 'a'], ['c', 'f', 'a', 'r', 'i']),
  (['c', 'f', 'a', 'r'], ['c', 'f', 'a', 'r', 'i']),
  (['c', 'f', 'i'], ['c', 'f', 'i', 'l', 'a']),
  (['c', 'f', 'i', 'k'], ['c', 'f', 'i', 'k', 'a']),
  (['c', 'f', 'i', 'l'], ['c', 'f', 'i', 'l', 'a']),
  (['c', 'f', 'i', 'n'], ['c', 'f', 'i', 'n', 'e']),
  (['c', 'f', 'i', 'p'], ['c', 'f', 'i', 'p', 'u']),
  (['c', 'f', 'u'], ['r', 'i', 'c', 'f', 'u']),
  (['c', 'i', '\'', 'a'], ['c', 'i', 's', 'k', 'a']),
  (['c', 'i', '\'', 'e'], ['c', 'i', 's', 't', 'e']),
  (['c', 'i', '\'', 'i'], ['c', 'i', 'n', 'r', 'i']),
  (['c', 'i', '\'', 'o'], ['c', 'i', 't', 'n', 'o']),
  (['c', 'i', '\'', 'u'], ['c', 'k', 'i', 'l', 'u']),
  (['c', 'i', 'b'], ['c', 'i']),
  (['c', 'i', 'b', 'l'], ['c', 'i', 'b', 'l', 'u']),
  (['c', 'i', 'c'], ['c', 'i', 'l', 'c', 'e']),
  (['c', 'i', 'c', 'n'], ['c', 'i', 'c', 'n', 'a']),
  (['c', 'i', 'd'], ['c', 'i', 'd', 'n', 'i']),
  (['c', 'i', 'd', 'j'], ['c', 'i', 'd', 'j', 'a']),
  (['c', 'i', 'd', 'n'], ['c', 'i', 'd', 'n', 'i']),
  (['c', 'i', 'd', 'r'], ['c', 'i', 'd', 'r', 'o']),
  (['c', 'i', 'f'], ['c', 'i', 'f', 'n', 'u']),
  (['c', 'i', 'f', 'n'], ['c', 'i', 'f', 'n', 'u']),
  (['c', 'i', 'g'], ['c', 'i', 'g', 'l', 'a']),
  (['c', 'i', 'g', 'l'], ['c', 'i', 'g', 'l', 'a']),
  (['c', 'i', 'j'], ['c', 'i', 'n', 'j', 'e']),
  (['c', 'i', 'k'], ['c', 'i', 'k', 'n', 'a']),
  (['c', 'i', 'k', 'n'], ['c', 'i', 'k', 'n', 'a']),
  (['c', 'i', 'k', 'r'], ['c', 'i', 'k', 'r', 'e']),
  (['c', 'i', 'k', 's'], ['c', 'i', 'k', 's', 'i']),
  (['c', 'i', 'l'], ['c', 'i', 'l', 't', 'a']),
  (['c', 'i', 'l', 'c'], ['c', 'i', 'l', 'c', 'e']),
  (['c', 'i', 'l', 'm'], ['c', 'i', 'l', 'm', 'o']),
  (['c', 'i', 'l', 'r'], ['c', 'i', 'l', 'r', 'e']),
  (['c', 'i', 'l', 't'], ['c', 'i', 'l', 't', 'a']),
  (['c', 'i', 'm'], ['c', 'i', 'l', 'm', 'o']),
  (['c', 'i', 'm', 'd'], ['c', 'i', 'm', 'd', 'e']),
  (['c', 'i', 'm', 'n'], ['c', 'i', 'm', 'n', 'i']),
  (['c', 'i', 'n'], ['c', 'i', 'n', 's', 'e']),
  (['c', 'i', 'n', 'b'], ['c', 'i', 'n', 'b', 'a']),
  (['c', 'i', 'n', 'd'], ['c', 'i', 'n', 'd', 'u']),
  (['c', 'i', 'n', 'f'], ['c', 'i', 'n', 'f', 'o']),
  (['c', 'i', 'n', 'j'], ['c', 'i', 'n', 'j', 'e']),
  (['c', 'i', 'n', 'k'], ['c', 'i', 'n', 'k', 'i'])]

/-- `canonluj.inc` as made by `canonluj.pl:8-27` from `reduced_gismu`: rafsi and word, sorted by rafsi, entries 300-399. -/
def r2g3 : List (Word × Word) := [
  (['c', 'i', 'n', 'l'], ['c', 'i', 'n', 'l', 'a']),
  (['c', 'i', 'n', 'm'], ['c', 'i', 'n', 'm', 'o']),
  (['c', 'i', 'n', 'r'], ['c', 'i', 'n', 'r', 'i']),
  (['c', 'i', 'n', 's'], ['c', 'i', 'n', 's', 'e']),
  (['c', 'i', 'n', 't'], ['c', 'i', 'n', 't', 'a']),
  (['c', 'i', 'n', 'z'], ['c', 'i', 'n', 'z', 'a']),
  (['c', 'i', 'p'], ['c', 'i', 'p', 'r', 'a']),
  (['c', 'i', 'p', 'n'], ['c', 'i', 'p', 'n', 'i']),
  (['c', 'i', 'p', 'r'], ['c', 'i', 'p', 'r', 'a']),
  (['c', 'i', 'r'], ['c', 'i', 't', 'r', 'i']),
  (['c', 'i', 'r', 'k'], ['c', 'i', 'r', 'k', 'o']),
  (['c', 'i', 'r', 'l'], ['c', 'i', 'r', 'l', 'a']),
  (['c', 'i', 's'], ['c', 'r', 'i', 's', 'a']),
  (['c', 'i', 's', 'k'], ['c', 'i', 's', 'k', 'a']),
  (['c', 'i', 's', 'm'], ['c', 'i', 's', 'm', 'a']),
  (['c', 'i', 's', 't'], ['c', 'i', 's', 't', 'e']),
  (['c', 'i', 't'], ['c', 'i', 't', 'n', 'o']),
  (['c', 'i', 't', 'k'], ['c', 'i', 't', 'k', 'a']),
  (['c', 'i', 't', 'n'], ['c', 'i', 't', 'n', 'o']),
  (['c', 'i', 't', 'r'], ['c', 'i', 't', 'r', 'i']),
  (['c', 'i', 't', 's'], ['c', 'i', 't', 's', 'i']),
  (['c', 'i', 'v'], ['c', 'i', 'v', 'l', 'a']),
  (['c', 'i', 'v', 'l'], ['c', 'i', 'v', 'l', 'a']),
  (['c', 'i', 'z'], ['c', 'i', 'z', 'r', 'a']),
  (['c', 'i', 'z', 'r'], ['c', 'i', 'z', 'r', 'a']),
  (['c', 'k', 'a'], ['c', 'k', 'a', 'n', 'a']),
  (['c', 'k', 'a', 'b'], ['c', 'k', 'a', 'b', 'u']),
  (['c', 'k', 'a', 'f'], ['c', 'k', 'a', 'f', 'i']),
  (['c', 'k', 'a', 'j'], ['c', 'k', 'a', 'j', 'i']),
  (['c', 'k', 'a', 'n'], ['c', 'k', 'a', 'n', 'a']),
  (['c', 'k', 'a', 'p'], ['c', 'k', 'a', 'p', 'e']),
  (['c', 'k', 'a', 's'], ['c', 'k', 'a', 's', 'u']),
  (['c', 'k', 'e'], ['c', 'k', 'e', 'j', 'i']),
  (['c', 'k', 'e', 'j'], ['c', 'k', 'e', 'j', 'i']),
  (['c', 'k', 'i'], ['c', 'i', 'k', 's', 'i']),
  (['c', 'k', 'i', 'k'], ['c', 'k', 'i', 'k', 'u']),
  (['c', 'k', 'i', 'l'], ['c', 'k', 'i', 'l', 'u']),
  (['c', 'k', 'i', 'n'], ['c', 'k', 'i', 'n', 'i']),
  (['c', 'k', 'i', 'r'], ['c', 'k', 'i', 'r', 'e']),
  (['c', 'k', 'o'], ['c', 'o', 'k', 'c', 'u']),
  (['c', 'k', 'u'], ['c', 'u', 'k', 't', 'a']),
  (['c', 'k', 'u', 'l'], ['c', 'k', 'u', 'l', 'e']),
  (['c', 'k', 'u', 'n'], ['c', 'k', 'u', 'n', 'u']),
  (['c', 'l', 'a'], ['c', 'l', 'a', 'n', 'i']),
  (['c', 'l', 'a', 'd'], ['c', 'l', 'a', 'd', 'u']),
  (['c', 'l', 'a', 'n'], ['c', 'l', 'a', 'n', 'i']),
  (['c', 'l', 'a', 'x'], ['c', 'l', 'a', 'x', 'u']),
  (['c', 'l', 'i'], ['c', 'i', 'l', 'r', 'e']),
  (['c', 'l', 'i', 'k'], ['c', 'l', 'i', 'k', 'a']),
  (['c', 'l', 'i', 'r'], ['c', 'l', 'i', 'r', 'a']),
  (['c', 'l', 'i', 't'], ['c', 'l', 'i', 't', 'e']),
  (['c', 'l', 'i', 'v'], ['c', 'l', 'i', 'v', 'a']),
  (['c', 'l', 'u'], ['c', 'u', 'l', 'n', 'o']),
  (['c', 'l', 'u', 'p'], ['c', 'l', 'u', 'p', 'a']),
  (['c', 'm', 'a'], ['c', 'm', 'a', 'l', 'u']),
  (['c', 'm', 'a', 'c'], ['c', 'm', 'a', 'c', 'i']),
  (['c', 'm', 'a', 'l'], ['c', 'm', 'a', 'l', 'u']),
  (['c', 'm', 'a', 'n'], ['c', 'm', 'a', 'n', 'a']),
  (['c', 'm', 'a', 'v'], ['c', 'm', 'a', 'v', 'o']),
  (['c', 'm', 'e'], ['c', 'm', 'e', 'n', 'e']),
  (['c', 'm', 'e', 'n'], ['c', 'm', 'e', 'n', 'e']),
  (['c', 'm', 'i'], ['c', 'm', 'i', 'm', 'a']),
  (['c', 'm', 'i', 'l'], ['c', 'm', 'i', 'l', 'a']),
  (['c', 'm', 'i', 'm'], ['c', 'm', 'i', 'm', 'a']),
  (['c', 'm', 'o'], ['c', 'm', 'o', 'n', 'i']),
  (['c', 'm', 'o', 'n'], ['c', 'm', 'o', 'n', 'i']),
  (['c', 'm', 'u'], ['j', 'i', 'c', 'm', 'u']),
  (['c', 'n', 'a'], ['c', 'a', 'n', 'p', 'a']),
  (['c', 'n', 'a', 'n'], ['c', 'n', 'a', 'n', 'o']),
  (['c', 'n', 'e'], ['c', 'e', 'n', 'b', 'a']),
  (['c', 'n', 'e', 'b'], ['c', 'n', 'e', 'b', 'o']),
  (['c', 'n', 'e', 'm'], ['c', 'n', 'e', 'm', 'u']),
  (['c', 'n', 'i'], ['c', 'i', 'n', 'm', 'o']),
  (['c', 'n', 'i', 'c'], ['c', 'n', 'i', 'c', 'i']),
  (['c', 'n', 'i', 'n'], ['c', 'n', 'i', 'n', 'o']),
  (['c', 'n', 'i', 's'], ['c', 'n', 'i', 's', 'a']),
  (['c', 'n', 'i', 't'], ['c', 'n', 'i', 't', 'a']),
  (['c', 'n', 'o'], ['c', 'o', 'n', 'd', 'i']),
  (['c', 'n', 'u'], ['m', 'a', 'c', 'n', 'u']),
  (['c', 'o', '\'', 'a'], ['c', 'o', '\'', 'a']),
  (['c', 'o', '\'', 'e'], ['c', 'o', '\'', 'e']),
  (['c', 'o', '\'', 'i'], ['c', 'm', 'o', 'n', 'i']),
  (['c', 'o', '\'', 'u'], ['c', 'o', '\'', 'u']),
  (['c', 'o', 'i'], ['c', 'o', 'n', 'd', 'i']),
  (['c', 'o', 'k', 'c'], ['c', 'o', 'k', 'c', 'u']),
  (['c', 'o', 'l'], ['c', 'o']),
  (['c', 'o', 'm'], ['c', 'o', '\'', 'e']),
  (['c', 'o', 'n'], ['c', 'o', 'n', 'd', 'i']),
  (['c', 'o', 'n', 'd'], ['c', 'o', 'n', 'd', 'i']),
  (['c', 'o', 'r'], ['c', 'o', 'r', 't', 'u']),
  (['c', 'o', 'r', 't'], ['c', 'o', 'r', 't', 'u']),
  (['c', 'p', 'a'], ['c', 'p', 'a', 'c', 'u']),
  (['c', 'p', 'a', 'c'], ['c', 'p', 'a', 'c', 'u']),
  (['c', 'p', 'a', 'n'], ['c', 'p', 'a', 'n', 'a']),
  (['c', 'p', 'a', 'r'], ['c', 'p', 'a', 'r', 'e']),
  (['c', 'p', 'e'], ['c', 'p', 'e', 'd', 'u']),
  (['c', 'p', 'e', 'd'], ['c', 'p', 'e', 'd', 'u']),
  (['c', 'p', 'i'], ['c', 'i', 'p', 'n', 'i']),
  (['c', 'p', 'i', 'n'], ['c', 'p', 'i', 'n', 'a']),
  (['c', 'p', 'u'], ['l', 'a', 'c', 'p', 'u'])]

/-- `canonluj.inc` as made by `canonluj.pl:8-27` from `reduced_gismu`: rafsi and word, sorted by rafsi, entries 400-499. -/
def r2g4 : List (Word × Word) := [
  (['c', 'r', 'a'], ['c', 'r', 'a', 'n', 'e']),
  (['c', 'r', 'a', 'd'], ['c', 'r', 'a', 'd', 'i']),
  (['c', 'r', 'a', 'n'], ['c', 'r', 'a', 'n', 'e']),
  (['c', 'r', 'e'], ['c', 'e', 'r', 't', 'u']),
  (['c', 'r', 'e', 'k'], ['c', 'r', 'e', 'k', 'a']),
  (['c', 'r', 'e', 'p'], ['c', 'r', 'e', 'p', 'u']),
  (['c', 'r', 'i'], ['c', 'i', 'r', 'k', 'o']),
  (['c', 'r', 'i', 'b'], ['c', 'r', 'i', 'b', 'e']),
  (['c', 'r', 'i', 'd'], ['c', 'r', 'i', 'd', 'a']),
  (['c', 'r', 'i', 'n'], ['c', 'r', 'i', 'n', 'o']),
  (['c', 'r', 'i', 'p'], ['c', 'r', 'i', 'p', 'u']),
  (['c', 'r', 'i', 's'], ['c', 'r', 'i', 's', 'a']),
  (['c', 'r', 'i', 't'], ['c', 'r', 'i', 't', 'u']),
  (['c', 'r', 'o'], ['c', 'o', 'r', 't', 'u']),
  (['c', 'r', 'u'], ['c', 'u', 'r', 'm', 'i']),
  (['c', 't', 'a'], ['c', 'a', 't', 'l', 'u']),
  (['c', 't', 'a', 'r'], ['c', 't', 'a', 'r', 'u']),
  (['c', 't', 'e'], ['n', 'i', 'c', 't', 'e']),
  (['c', 't', 'e', 'b'], ['c', 't', 'e', 'b', 'i']),
  (['c', 't', 'e', 'k'], ['c', 't', 'e', 'k', 'i']),
  (['c', 't', 'i'], ['c', 'i', 't', 'k', 'a']),
  (['c', 't', 'i', 'l'], ['c', 't', 'i', 'l', 'e']),
  (['c', 't', 'i', 'n'], ['c', 't', 'i', 'n', 'o']),
  (['c', 't', 'o'], ['x', 'e', 'c', 't', 'o']),
  (['c', 't', 'u'], ['c', 't', 'u', 'c', 'a']),
  (['c', 't', 'u', 'c'], ['c', 't', 'u', 'c', 'a']),
  (['c', 'u', '\'', 'a'], ['c', 'u', 'x', 'n', 'a']),
  (['c', 'u', '\'', 'e'], ['c', 'k', 'u', 'l', 'e']),
  (['c', 'u', '\'', 'i'], ['c', 'u', 'm', 'k', 'i']),
  (['c', 'u', '\'', 'o'], ['c', 'u', 'n', 's', 'o']),
  (['c', 'u', '\'', 'u'], ['c', 'u', 'n', 't', 'u']),
  (['c', 'u', 'c'], ['c', 'u', 't', 'c', 'i']),
  (['c', 'u', 'k'], ['c', 'u', 'k', 'l', 'a']),
  (['c', 'u', 'k', 'l'], ['c', 'u', 'k', 'l', 'a']),
  (['c', 'u', 'k', 't'], ['c', 'u', 'k', 't', 'a']),
  (['c', 'u', 'l'], ['c', 'u', 'm', 'l', 'a']),
  (['c', 'u', 'l', 'n'], ['c', 'u', 'l', 'n', 'o']),
  (['c', 'u', 'm'], ['c', 'u', 'm', 'k', 'i']),
  (['c', 'u', 'm', 'k'], ['c', 'u', 'm', 'k', 'i']),
  (['c', 'u', 'm', 'l'], ['c', 'u', 'm', 'l', 'a']),
  (['c', 'u', 'n'], ['c', 'u', 'n', 's', 'o']),
  (['c', 'u', 'n', 'm'], ['c', 'u', 'n', 'm', 'i']),
  (['c', 'u', 'n', 's'], ['c', 'u', 'n', 's', 'o']),
  (['c', 'u', 'n', 't'], ['c', 'u', 'n', 't', 'u']),
  (['c', 'u', 'p'], ['c', 'l', 'u', 'p', 'a']),
  (['c', 'u', 'p', 'r'], ['c', 'u', 'p', 'r', 'a']),
  (['c', 'u', 'r'], ['c', 'u', 'r', 'n', 'u']),
  (['c', 'u', 'r', 'm'], ['c', 'u', 'r', 'm', 'i']),
  (['c', 'u', 'r', 'n'], ['c', 'u', 'r', 'n', 'u']),
  (['c', 'u', 'r', 'v'], ['c', 'u', 'r', 'v', 'e']),
  (['c', 'u', 's'], ['c', 'u', 's', 'k', 'u']),
  (['c', 'u', 's', 'k'], ['c', 'u', 's', 'k', 'u']),
  (['c', 'u', 't'], ['c', 'u', 't', 'n', 'e']),
  (['c', 'u', 't', 'c'], ['c', 'u', 't', 'c', 'i']),
  (['c', 'u', 't', 'n'], ['c', 'u', 't', 'n', 'e']),
  (['c', 'u', 'v'], ['c', 'u', 'r', 'v', 'e']),
  (['c', 'u', 'x'], ['c', 'u', 'x', 'n', 'a']),
  (['c', 'u', 'x', 'n'], ['c', 'u', 'x', 'n', 'a']),
  (['d', 'a', '\'', 'a'], ['d', 'a', 'm', 'b', 'a']),
  (['d', 'a', '\'', 'e'], ['d', 'a', 'n', 'r', 'e']),
  (['d', 'a', '\'', 'i'], ['d', 'a', 'r', 'x', 'i']),
  (['d', 'a', '\'', 'o'], ['d', 'a', 'r', 'n', 'o']),
  (['d', 'a', '\'', 'u'], ['d', 'a', 'n', 'l', 'u']),
  (['d', 'a', 'b'], ['d', 'a', 'm', 'b', 'a']),
  (['d', 'a', 'c'], ['d', 'a', 'c', 'r', 'u']),
  (['d', 'a', 'c', 'r'], ['d', 'a', 'c', 'r', 'u']),
  (['d', 'a', 'c', 't'], ['d', 'a', 'c', 't', 'i']),
  (['d', 'a', 'd'], ['d', 'a', 'n', 'd', 'u']),
  (['d', 'a', 'd', 'j'], ['d', 'a', 'd', 'j', 'o']),
  (['d', 'a', 'f'], ['d', 'a', 'n', 'f', 'u']),
  (['d', 'a', 'g'], ['d', 'a', 'r', 'g', 'u']),
  (['d', 'a', 'i'], ['d', 'a', 'c', 't', 'i']),
  (['d', 'a', 'j'], ['d', 'a', 'd', 'j', 'o']),
  (['d', 'a', 'k'], ['d', 'a', 'k', 'f', 'u']),
  (['d', 'a', 'k', 'f'], ['d', 'a', 'k', 'f', 'u']),
  (['d', 'a', 'k', 'l'], ['d', 'a', 'k', 'l', 'i']),
  (['d', 'a', 'l'], ['d', 'a', 'n', 'l', 'u']),
  (['d', 'a', 'm'], ['d', 'a', 'n', 'm', 'o']),
  (['d', 'a', 'm', 'b'], ['d', 'a', 'm', 'b', 'a']),
  (['d', 'a', 'm', 'r'], ['d', 'a', 'm', 'r', 'i']),
  (['d', 'a', 'n'], ['d', 'a', 'n', 't', 'i']),
  (['d', 'a', 'n', 'd'], ['d', 'a', 'n', 'd', 'u']),
  (['d', 'a', 'n', 'f'], ['d', 'a', 'n', 'f', 'u']),
  (['d', 'a', 'n', 'l'], ['d', 'a', 'n', 'l', 'u']),
  (['d', 'a', 'n', 'm'], ['d', 'a', 'n', 'm', 'o']),
  (['d', 'a', 'n', 'r'], ['d', 'a', 'n', 'r', 'e']),
  (['d', 'a', 'n', 's'], ['d', 'a', 'n', 's', 'u']),
  (['d', 'a', 'n', 't'], ['d', 'a', 'n', 't', 'i']),
  (['d', 'a', 'p'], ['d', 'a', 'p', 'm', 'a']),
  (['d', 'a', 'p', 'l'], ['d', 'a', 'p', 'l', 'u']),
  (['d', 'a', 'p', 'm'], ['d', 'a', 'p', 'm', 'a']),
  (['d', 'a', 'r'], ['d', 'a', 'r', 'n', 'o']),
  (['d', 'a', 'r', 'g'], ['d', 'a', 'r', 'g', 'u']),
  (['d', 'a', 'r', 'l'], ['d', 'a', 'r', 'l', 'u']),
  (['d', 'a', 'r', 'n'], ['d', 'a', 'r', 'n', 'o']),
  (['d', 'a', 'r', 's'], ['d', 'a', 'r', 's', 'i']),
  (['d', 'a', 'r', 'x'], ['d', 'a', 'r', 'x', 'i']),
  (['d', 'a', 's'], ['d', 'a', 's', 'n', 'i']),
  (['d', 'a', 's', 'k'], ['d', 'a', 's', 'k', 'i']),
  (['d', 'a', 's', 'n'], ['d', 'a', 's', 'n', 'i'])]

/-- `canonluj.inc` as made by `canonluj.pl:8-27` from `reduced_gismu`: rafsi and word, sorted by rafsi, entries 500-599. -/
def r2g5 : List (Word × Word) := [
  (['d', 'a', 's', 'p'], ['d', 'a', 's', 'p', 'o']),
  (['d', 'a', 's', 'r'], ['d', 'a', 's', 'r', 'i']),
  (['d', 'a', 't'], ['d', 'r', 'a', 't', 'a']),
  (['d', 'a', 't', 'k'], ['d', 'a', 't', 'k', 'a']),
  (['d', 'a', 't', 'n'], ['d', 'a', 't', 'n', 'i']),
  (['d', 'a', 'u'], ['d', 'a', 'r', 'l', 'u']),
  (['d', 'a', 'v'], ['d', 'a']),
  (['d', 'a', 'x'], ['d', 'a', 'r', 'x', 'i']),
  (['d', 'a', 'z'], ['d', 'a', '\'', 'a']),
  (['d', 'e', '\'', 'a'], ['d', 'e', 'n', 'p', 'a']),
  (['d', 'e', '\'', 'i'], ['d', 'e', 'n', 'c', 'i']),
  (['d', 'e', '\'', 'o'], ['d', 'e', 'l', 'n', 'o']),
  (['d', 'e', '\'', 'u'], ['d', 'e', 'r', 't', 'u']),
  (['d', 'e', 'b'], ['d', 'e', 'm', 'b', 'i']),
  (['d', 'e', 'c'], ['d', 'e', 'c', 't', 'i']),
  (['d', 'e', 'c', 't'], ['d', 'e', 'c', 't', 'i']),
  (['d', 'e', 'g'], ['d', 'e', 'g', 'j', 'i']),
  (['d', 'e', 'g', 'j'], ['d', 'e', 'g', 'j', 'i']),
  (['d', 'e', 'i'], ['d', 'j', 'e', 'd', 'i']),
  (['d', 'e', 'j'], ['d', 'e', 'j', 'n', 'i']),
  (['d', 'e', 'j', 'n'], ['d', 'e', 'j', 'n', 'i']),
  (['d', 'e', 'k'], ['d', 'e', 'k', 't', 'o']),
  (['d', 'e', 'k', 'p'], ['d', 'e', 'k', 'p', 'u']),
  (['d', 'e', 'k', 't'], ['d', 'e', 'k', 't', 'o']),
  (['d', 'e', 'l'], ['d', 'e', 'l', 'n', 'o']),
  (['d', 'e', 'l', 'n'], ['d', 'e', 'l', 'n', 'o']),
  (['d', 'e', 'm'], ['d', 'e', 'n', 'm', 'i']),
  (['d', 'e', 'm', 'b'], ['d', 'e', 'm', 'b', 'i']),
  (['d', 'e', 'n'], ['d', 'e', 'n', 'c', 'i']),
  (['d', 'e', 'n', 'c'], ['d', 'e', 'n', 'c', 'i']),
  (['d', 'e', 'n', 'm'], ['d', 'e', 'n', 'm', 'i']),
  (['d', 'e', 'n', 'p'], ['d', 'e', 'n', 'p', 'a']),
  (['d', 'e', 'p'], ['d', 'e', 'n', 'p', 'a']),
  (['d', 'e', 'r'], ['d', 'e', 'r', 't', 'u']),
  (['d', 'e', 'r', 't'], ['d', 'e', 'r', 't', 'u']),
  (['d', 'e', 'r', 'x'], ['d', 'e', 'r', 'x', 'i']),
  (['d', 'e', 's'], ['d', 'e', 's', 'k', 'u']),
  (['d', 'e', 's', 'k'], ['d', 'e', 's', 'k', 'u']),
  (['d', 'e', 't'], ['d', 'e', 't', 'r', 'i']),
  (['d', 'e', 't', 'r'], ['d', 'e', 't', 'r', 'i']),
  (['d', 'i', '\'', 'a'], ['j', 'd', 'i', 'm', 'a']),
  (['d', 'i', '\'', 'e'], ['d', 'i', 'r', 'c', 'e']),
  (['d', 'i', '\'', 'i'], ['j', 'd', 'i', 'n', 'i']),
  (['d', 'i', '\'', 'o'], ['d', 'i', 'n', 'k', 'o']),
  (['d', 'i', '\'', 'u'], ['d', 'i', 'n', 'j', 'u']),
  (['d', 'i', 'b'], ['d', 'i', 'r', 'b', 'a']),
  (['d', 'i', 'c'], ['d', 'i', 'k', 'c', 'a']),
  (['d', 'i', 'c', 'r'], ['d', 'i', 'c', 'r', 'a']),
  (['d', 'i', 'g'], ['d', 'i', 'r', 'g', 'o']),
  (['d', 'i', 'j'], ['d', 'i', 'n', 'j', 'u']),
  (['d', 'i', 'k'], ['d', 'i', 'k', 'n', 'i']),
  (['d', 'i', 'k', 'c'], ['d', 'i', 'k', 'c', 'a']),
  (['d', 'i', 'k', 'l'], ['d', 'i', 'k', 'l', 'o']),
  (['d', 'i', 'k', 'n'], ['d', 'i', 'k', 'n', 'i']),
  (['d', 'i', 'l'], ['d', 'i', 'l', 'n', 'u']),
  (['d', 'i', 'l', 'c'], ['d', 'i', 'l', 'c', 'u']),
  (['d', 'i', 'l', 'n'], ['d', 'i', 'l', 'n', 'u']),
  (['d', 'i', 'm'], ['d', 'i', 'm', 'n', 'a']),
  (['d', 'i', 'm', 'n'], ['d', 'i', 'm', 'n', 'a']),
  (['d', 'i', 'n'], ['j', 'd', 'i', 'n', 'i']),
  (['d', 'i', 'n', 'j'], ['d', 'i', 'n', 'j', 'u']),
  (['d', 'i', 'n', 'k'], ['d', 'i', 'n', 'k', 'o']),
  (['d', 'i', 'r'], ['d', 'i', 'c', 'r', 'a']),
  (['d', 'i', 'r', 'b'], ['d', 'i', 'r', 'b', 'a']),
  (['d', 'i', 'r', 'c'], ['d', 'i', 'r', 'c', 'e']),
  (['d', 'i', 'r', 'g'], ['d', 'i', 'r', 'g', 'o']),
  (['d', 'i', 'z'], ['d', 'i', 'z', 'l', 'o']),
  (['d', 'i', 'z', 'l'], ['d', 'i', 'z', 'l', 'o']),
  (['d', 'j', 'a'], ['c', 'i', 'd', 'j', 'a']),
  (['d', 'j', 'a', 'c'], ['d', 'j', 'a', 'c', 'u']),
  (['d', 'j', 'e'], ['d', 'j', 'e', 'd', 'i']),
  (['d', 'j', 'e', 'd'], ['d', 'j', 'e', 'd', 'i']),
  (['d', 'j', 'i'], ['d', 'j', 'i', 'c', 'a']),
  (['d', 'j', 'i', 'c'], ['d', 'j', 'i', 'c', 'a']),
  (['d', 'j', 'i', 'n'], ['d', 'j', 'i', 'n', 'e']),
  (['d', 'j', 'o'], ['s', 'a', 'd', 'j', 'o']),
  (['d', 'j', 'u'], ['s', 'i', 'd', 'j', 'u']),
  (['d', 'j', 'u', 'n'], ['d', 'j', 'u', 'n', 'o']),
  (['d', 'o', '\'', 'i'], ['d', 'o', 'n', 'r', 'i']),
  (['d', 'o', '\'', 'o'], ['d', 'o', 't', 'c', 'o']),
  (['d', 'o', 'i'], ['d', 'o']),
  (['d', 'o', 'n'], ['d', 'o']),
  (['d', 'o', 'n', 'r'], ['d', 'o', 'n', 'r', 'i']),
  (['d', 'o', 'r'], ['d', 'o', 'n', 'r', 'i']),
  (['d', 'o', 't'], ['d', 'o', 't', 'c', 'o']),
  (['d', 'o', 't', 'c'], ['d', 'o', 't', 'c', 'o']),
  (['d', 'r', 'a'], ['d', 'r', 'a', 'n', 'i']),
  (['d', 'r', 'a', 'c'], ['d', 'r', 'a', 'c', 'i']),
  (['d', 'r', 'a', 'n'], ['d', 'r', 'a', 'n', 'i']),
  (['d', 'r', 'a', 't'], ['d', 'r', 'a', 't', 'a']),
  (['d', 'r', 'e'], ['d', 'e', 'r', 'x', 'i']),
  (['d', 'r', 'i'], ['b', 'a', 'd', 'r', 'i']),
  (['d', 'r', 'o'], ['c', 'i', 'd', 'r', 'o']),
  (['d', 'r', 'u'], ['d', 'r', 'u', 'd', 'i']),
  (['d', 'r', 'u', 'd'], ['d', 'r', 'u', 'd', 'i']),
  (['d', 'u', '\'', 'a'], ['d', 'u', 'n', 'd', 'a']),
  (['d', 'u', '\'', 'e'], ['d', 'u', 'k', 's', 'e']),
  (['d', 'u', '\'', 'i'], ['d', 'u', 'n', 'l', 'i']),
  (['d', 'u', '\'', 'o'], ['d', 'u']),
  (['d', 'u', '\'', 'u'], ['d', 'u', 'n', 'k', 'u'])]

/-- `canonluj.inc` as made by `canonluj.pl:8-27` from `reduced_gismu`: rafsi and word, sorted by rafsi, entries 600-699. -/
def r2g6 : List (Word × Word) := [
  (['d', 'u', 'b'], ['d', 'u']),
  (['d', 'u', 'd'], ['d', 'u', 'n', 'd', 'a']),
  (['d', 'u', 'g'], ['d', 'u', 'g', 'r', 'i']),
  (['d', 'u', 'g', 'r'], ['d', 'u', 'g', 'r', 'i']),
  (['d', 'u', 'j'], ['d', 'u', 'n', 'j', 'a']),
  (['d', 'u', 'k'], ['d', 'u', 'n', 'k', 'u']),
  (['d', 'u', 'k', 's'], ['d', 'u', 'k', 's', 'e']),
  (['d', 'u', 'k', 't'], ['d', 'u', 'k', 't', 'i']),
  (['d', 'u', 'l'], ['j', 'd', 'u', 'l', 'i']),
  (['d', 'u', 'm'], ['d', 'u', '\'', 'u']),
  (['d', 'u', 'n'], ['d', 'u', 'n', 'l', 'i']),
  (['d', 'u', 'n', 'd'], ['d', 'u', 'n', 'd', 'a']),
  (['d', 'u', 'n', 'j'], ['d', 'u', 'n', 'j', 'a']),
  (['d', 'u', 'n', 'k'], ['d', 'u', 'n', 'k', 'u']),
  (['d', 'u', 'n', 'l'], ['d', 'u', 'n', 'l', 'i']),
  (['d', 'u', 'n', 'r'], ['d', 'u', 'n', 'r', 'a']),
  (['d', 'u', 'r'], ['d', 'u', 'n', 'r', 'a']),
  (['d', 'u', 's'], ['d', 'u', 'k', 's', 'e']),
  (['d', 'u', 't'], ['d', 'u', 'k', 't', 'i']),
  (['d', 'z', 'a'], ['d', 'a']),
  (['d', 'z', 'e'], ['d', 'z', 'e', 'n', 'a']),
  (['d', 'z', 'e', 'n'], ['d', 'z', 'e', 'n', 'a']),
  (['d', 'z', 'i'], ['d', 'i', 'z', 'l', 'o']),
  (['d', 'z', 'i', 'p'], ['d', 'z', 'i', 'p', 'o']),
  (['d', 'z', 'u'], ['c', 'a', 'd', 'z', 'u']),
  (['f', 'a', '\'', 'a'], ['f', 'a', 'r', 'n', 'a']),
  (['f', 'a', '\'', 'e'], ['f', 'a', 't', 'n', 'e']),
  (['f', 'a', '\'', 'i'], ['f', 'a', 'c', 'k', 'i']),
  (['f', 'a', '\'', 'o'], ['f', 'a', 'n', 'm', 'o']),
  (['f', 'a', '\'', 'u'], ['f', 'a', 'r', 'l', 'u']),
  (['f', 'a', 'c'], ['f', 'a', 't', 'c', 'i']),
  (['f', 'a', 'c', 'k'], ['f', 'a', 'c', 'k', 'i']),
  (['f', 'a', 'd'], ['f', 'a', 'd', 'n', 'i']),
  (['f', 'a', 'd', 'n'], ['f', 'a', 'd', 'n', 'i']),
  (['f', 'a', 'g'], ['f', 'a', 'g', 'r', 'i']),
  (['f', 'a', 'g', 'r'], ['f', 'a', 'g', 'r', 'i']),
  (['f', 'a', 'i'], ['f', 'a', 't', 'r', 'i']),
  (['f', 'a', 'k'], ['f', 'a', 'c', 'k', 'i']),
  (['f', 'a', 'l'], ['f', 'a', 'r', 'l', 'u']),
  (['f', 'a', 'l', 'n'], ['f', 'a', 'l', 'n', 'u']),
  (['f', 'a', 'm'], ['f', 'a', 'n', 'm', 'o']),
  (['f', 'a', 'm', 't'], ['f', 'a', 'm', 't', 'i']),
  (['f', 'a', 'n'], ['f', 'a', 'l', 'n', 'u']),
  (['f', 'a', 'n', 'c'], ['f', 'a', 'n', 'c', 'u']),
  (['f', 'a', 'n', 'g'], ['f', 'a', 'n', 'g', 'e']),
  (['f', 'a', 'n', 'm'], ['f', 'a', 'n', 'm', 'o']),
  (['f', 'a', 'n', 'r'], ['f', 'a', 'n', 'r', 'i']),
  (['f', 'a', 'n', 't'], ['f', 'a', 'n', 't', 'a']),
  (['f', 'a', 'n', 'v'], ['f', 'a', 'n', 'v', 'a']),
  (['f', 'a', 'n', 'z'], ['f', 'a', 'n', 'z', 'a']),
  (['f', 'a', 'p'], ['f', 'a', 'p', 'r', 'o']),
  (['f', 'a', 'p', 'r'], ['f', 'a', 'p', 'r', 'o']),
  (['f', 'a', 'r'], ['f', 'a', 'r', 'n', 'a']),
  (['f', 'a', 'r', 'l'], ['f', 'a', 'r', 'l', 'u']),
  (['f', 'a', 'r', 'n'], ['f', 'a', 'r', 'n', 'a']),
  (['f', 'a', 'r', 'v'], ['f', 'a', 'r', 'v', 'i']),
  (['f', 'a', 's'], ['f', 'r', 'a', 's', 'o']),
  (['f', 'a', 's', 'n'], ['f', 'a', 's', 'n', 'u']),
  (['f', 'a', 't'], ['f', 'a', 't', 'n', 'e']),
  (['f', 'a', 't', 'c'], ['f', 'a', 't', 'c', 'i']),
  (['f', 'a', 't', 'n'], ['f', 'a', 't', 'n', 'e']),
  (['f', 'a', 't', 'r'], ['f', 'a', 't', 'r', 'i']),
  (['f', 'a', 'u'], ['f', 'a', 's', 'n', 'u']),
  (['f', 'a', 'v'], ['f', 'a', 'r', 'v', 'i']),
  (['f', 'a', 'x'], ['f', 'r', 'a', 'x', 'u']),
  (['f', 'a', 'z'], ['f', 'a', 'n', 'z', 'a']),
  (['f', 'e', '\'', 'a'], ['f', 'e', 'n', 'r', 'a']),
  (['f', 'e', '\'', 'i'], ['f', 'e', 't', 's', 'i']),
  (['f', 'e', '\'', 'o'], ['f', 'e', 'n', 's', 'o']),
  (['f', 'e', '\'', 'u'], ['f', 'e', 'n', 'g', 'u']),
  (['f', 'e', 'b'], ['f', 'e', 'b', 'v', 'i']),
  (['f', 'e', 'b', 'v'], ['f', 'e', 'b', 'v', 'i']),
  (['f', 'e', 'd'], ['f', 'e', 'n', 'd', 'i']),
  (['f', 'e', 'g'], ['f', 'e', 'n', 'g', 'u']),
  (['f', 'e', 'i'], ['f', 'e', 'p', 'n', 'i']),
  (['f', 'e', 'k'], ['f', 'e', 'n', 'k', 'i']),
  (['f', 'e', 'm'], ['f', 'e', 'm', 't', 'i']),
  (['f', 'e', 'm', 't'], ['f', 'e', 'm', 't', 'i']),
  (['f', 'e', 'n'], ['f', 'e', 'n', 's', 'o']),
  (['f', 'e', 'n', 'd'], ['f', 'e', 'n', 'd', 'i']),
  (['f', 'e', 'n', 'g'], ['f', 'e', 'n', 'g', 'u']),
  (['f', 'e', 'n', 'k'], ['f', 'e', 'n', 'k', 'i']),
  (['f', 'e', 'n', 'r'], ['f', 'e', 'n', 'r', 'a']),
  (['f', 'e', 'n', 's'], ['f', 'e', 'n', 's', 'o']),
  (['f', 'e', 'p'], ['f', 'e', 'p', 'n', 'i']),
  (['f', 'e', 'p', 'n'], ['f', 'e', 'p', 'n', 'i']),
  (['f', 'e', 'p', 'r'], ['f', 'e', 'p', 'r', 'i']),
  (['f', 'e', 'r'], ['f', 'e', 'n', 'r', 'a']),
  (['f', 'e', 'r', 't'], ['f', 'e', 'r', 't', 'i']),
  (['f', 'e', 's'], ['f', 'e', 's', 't', 'i']),
  (['f', 'e', 's', 't'], ['f', 'e', 's', 't', 'i']),
  (['f', 'e', 't'], ['f', 'e', 't', 's', 'i']),
  (['f', 'e', 't', 's'], ['f', 'e', 't', 's', 'i']),
  (['f', 'i', '\'', 'a'], ['c', 'f', 'i', 'k', 'a']),
  (['f', 'i', '\'', 'e'], ['f', 'i', 'n', 'p', 'e']),
  (['f', 'i', '\'', 'i'], ['f', 'i', 'n', 't', 'i']),
  (['f', 'i', '\'', 'o'], ['f', 'r', 'i', 'k', 'o']),
  (['f', 'i', '\'', 'u'], ['c', 'f', 'i', 'p', 'u']),
  (['f', 'i', 'c'], ['f', 'r', 'i', 'c', 'a']),
  (['f', 'i', 'g'], ['f', 'i', 'g', 'r', 'e'])]

/-- `canonluj.inc` as made by `canonluj.pl:8-27` from `reduced_gismu`: rafsi and word, sorted by rafsi, entries 700-799. -/
def r2g7 : List (Word × Word) := [
  (['f', 'i', 'g', 'r'], ['f', 'i', 'g', 'r', 'e']),
  (['f', 'i', 'k'], ['c', 'f', 'i', 'k', 'a']),
  (['f', 'i', 'l'], ['f', 'r', 'i', 'l', 'i']),
  (['f', 'i', 'l', 's'], ['f', 'i', 'l', 's', 'o']),
  (['f', 'i', 'n'], ['f', 'i', 'n', 't', 'i']),
  (['f', 'i', 'n', 'p'], ['f', 'i', 'n', 'p', 'e']),
  (['f', 'i', 'n', 't'], ['f', 'i', 'n', 't', 'i']),
  (['f', 'i', 'p'], ['f', 'i', 'n', 'p', 'e']),
  (['f', 'i', 'r'], ['f', 'l', 'i', 'r', 'a']),
  (['f', 'i', 's'], ['f', 'i', 'l', 's', 'o']),
  (['f', 'i', 't'], ['f', 'r', 'i', 't', 'i']),
  (['f', 'l', 'a'], ['f', 'l', 'a', 'l', 'u']),
  (['f', 'l', 'a', 'l'], ['f', 'l', 'a', 'l', 'u']),
  (['f', 'l', 'a', 'n'], ['f', 'l', 'a', 'n', 'i']),
  (['f', 'l', 'e'], ['f', 'l', 'e', 'c', 'u']),
  (['f', 'l', 'e', 'c'], ['f', 'l', 'e', 'c', 'u']),
  (['f', 'l', 'i'], ['f', 'l', 'i', 'b', 'a']),
  (['f', 'l', 'i', 'b'], ['f', 'l', 'i', 'b', 'a']),
  (['f', 'l', 'i', 'r'], ['f', 'l', 'i', 'r', 'a']),
  (['f', 'l', 'o'], ['f', 'o', 'l', 'd', 'i']),
  (['f', 'l', 'u'], ['f', 'u', 'l', 't', 'a']),
  (['f', 'o', '\'', 'a'], ['f', 'o', '\'', 'a']),
  (['f', 'o', '\'', 'e'], ['f', 'o', '\'', 'e']),
  (['f', 'o', '\'', 'i'], ['f', 'o', '\'', 'i']),
  (['f', 'o', '\'', 'o'], ['f', 'o', 'n', 'm', 'o']),
  (['f', 'o', 'i'], ['f', 'o', 'l', 'd', 'i']),
  (['f', 'o', 'l', 'd'], ['f', 'o', 'l', 'd', 'i']),
  (['f', 'o', 'm'], ['f', 'o', 'n', 'm', 'o']),
  (['f', 'o', 'n'], ['f', 'o', 'n', 'x', 'a']),
  (['f', 'o', 'n', 'm'], ['f', 'o', 'n', 'm', 'o']),
  (['f', 'o', 'n', 'x'], ['f', 'o', 'n', 'x', 'a']),
  (['f', 'o', 'r', 'c'], ['f', 'o', 'r', 'c', 'a']),
  (['f', 'r', 'a'], ['f', 'r', 'a', 't', 'i']),
  (['f', 'r', 'a', 's'], ['f', 'r', 'a', 's', 'o']),
  (['f', 'r', 'a', 't'], ['f', 'r', 'a', 't', 'i']),
  (['f', 'r', 'a', 'x'], ['f', 'r', 'a', 'x', 'u']),
  (['f', 'r', 'e'], ['f', 'e', 'r', 't', 'i']),
  (['f', 'r', 'i'], ['l', 'i', 'f', 'r', 'i']),
  (['f', 'r', 'i', 'c'], ['f', 'r', 'i', 'c', 'a']),
  (['f', 'r', 'i', 'k'], ['f', 'r', 'i', 'k', 'o']),
  (['f', 'r', 'i', 'l'], ['f', 'r', 'i', 'l', 'i']),
  (['f', 'r', 'i', 'n'], ['f', 'r', 'i', 'n', 'u']),
  (['f', 'r', 'i', 't'], ['f', 'r', 'i', 't', 'i']),
  (['f', 'r', 'o'], ['f', 'o', 'r', 'c', 'a']),
  (['f', 'r', 'u'], ['f', 'r', 'u', 'm', 'u']),
  (['f', 'r', 'u', 'm'], ['f', 'r', 'u', 'm', 'u']),
  (['f', 'u', '\'', 'a'], ['f', 'u', 'n', 'c', 'a']),
  (['f', 'u', '\'', 'e'], ['f', 'u', 'z', 'm', 'e']),
  (['f', 'u', '\'', 'i'], ['f', 'u', 'k', 'p', 'i']),
  (['f', 'u', 'k'], ['f', 'u', 'k', 'p', 'i']),
  (['f', 'u', 'k', 'p'], ['f', 'u', 'k', 'p', 'i']),
  (['f', 'u', 'l'], ['f', 'u', 'l', 't', 'a']),
  (['f', 'u', 'l', 't'], ['f', 'u', 'l', 't', 'a']),
  (['f', 'u', 'n'], ['f', 'u', 'n', 'c', 'a']),
  (['f', 'u', 'n', 'c'], ['f', 'u', 'n', 'c', 'a']),
  (['f', 'u', 'r'], ['f', 'u', 's', 'r', 'a']),
  (['f', 'u', 's', 'r'], ['f', 'u', 's', 'r', 'a']),
  (['f', 'u', 'z'], ['f', 'u', 'z', 'm', 'e']),
  (['f', 'u', 'z', 'm'], ['f', 'u', 'z', 'm', 'e']),
  (['g', 'a', '\'', 'a'], ['g', 'r', 'a', 'n', 'a']),
  (['g', 'a', '\'', 'e'], ['g', 'a', 'n', 's', 'e']),
  (['g', 'a', '\'', 'i'], ['g', 'a', 'l', 'f', 'i']),
  (['g', 'a', '\'', 'o'], ['g', 'a', 'n', 'l', 'o']),
  (['g', 'a', '\'', 'u'], ['g', 'a', 'l', 't', 'u']),
  (['g', 'a', 'c'], ['g', 'a', 'p', 'c', 'i']),
  (['g', 'a', 'c', 'r'], ['g', 'a', 'c', 'r', 'i']),
  (['g', 'a', 'd'], ['g', 'a', 'd', 'r', 'i']),
  (['g', 'a', 'd', 'r'], ['g', 'a', 'd', 'r', 'i']),
  (['g', 'a', 'f'], ['g', 'a', 'l', 'f', 'i']),
  (['g', 'a', 'i'], ['g', 'a', 'c', 'r', 'i']),
  (['g', 'a', 'l'], ['g', 'a', 'l', 't', 'u']),
  (['g', 'a', 'l', 'f'], ['g', 'a', 'l', 'f', 'i']),
  (['g', 'a', 'l', 't'], ['g', 'a', 'l', 't', 'u']),
  (['g', 'a', 'l', 'x'], ['g', 'a', 'l', 'x', 'e']),
  (['g', 'a', 'n'], ['g', 'a', 'n', 'r', 'a']),
  (['g', 'a', 'n', 'l'], ['g', 'a', 'n', 'l', 'o']),
  (['g', 'a', 'n', 'r'], ['g', 'a', 'n', 'r', 'a']),
  (['g', 'a', 'n', 's'], ['g', 'a', 'n', 's', 'e']),
  (['g', 'a', 'n', 't'], ['g', 'a', 'n', 't', 'i']),
  (['g', 'a', 'n', 'x'], ['g', 'a', 'n', 'x', 'o']),
  (['g', 'a', 'n', 'z'], ['g', 'a', 'n', 'z', 'u']),
  (['g', 'a', 'p'], ['g', 'a', 'p', 'r', 'u']),
  (['g', 'a', 'p', 'c'], ['g', 'a', 'p', 'c', 'i']),
  (['g', 'a', 'p', 'r'], ['g', 'a', 'p', 'r', 'u']),
  (['g', 'a', 'r'], ['g', 'a', 'r', 'n', 'a']),
  (['g', 'a', 'r', 'n'], ['g', 'a', 'r', 'n', 'a']),
  (['g', 'a', 's'], ['g', 'a', 'n', 's', 'e']),
  (['g', 'a', 's', 'n'], ['g', 'a', 's', 'n', 'u']),
  (['g', 'a', 's', 't'], ['g', 'a', 's', 't', 'a']),
  (['g', 'a', 't'], ['g', 'a', 's', 't', 'a']),
  (['g', 'a', 'u'], ['g', 'a', 's', 'n', 'u']),
  (['g', 'a', 'x'], ['g', 'a', 'n', 'x', 'o']),
  (['g', 'a', 'z'], ['g', 'a', 'n', 'z', 'u']),
  (['g', 'e', '\'', 'a'], ['g', 'e', 'r', 'n', 'a']),
  (['g', 'e', '\'', 'o'], ['g', 'e', 'n', 't', 'o']),
  (['g', 'e', '\'', 'u'], ['g', 'e', 'r', 'k', 'u']),
  (['g', 'e', 'i'], ['g', 'l', 'e', 'k', 'i']),
  (['g', 'e', 'j'], ['g', 'e', 'n', 'j', 'a']),
  (['g', 'e', 'k'], ['g', 'l', 'e', 'k', 'i']),
  (['g', 'e', 'n'], ['g', 'e', 'r', 'n', 'a'])]

/-- `canonluj.inc` as made by `canonluj.pl:8-27` from `reduced_gismu`: rafsi and word, sorted by rafsi, entries 800-899. -/
def r2g8 : List (Word × Word) := [
  (['g', 'e', 'n', 'j'], ['g', 'e', 'n', 'j', 'a']),
  (['g', 'e', 'n', 't'], ['g', 'e', 'n', 't', 'o']),
  (['g', 'e', 'n', 'x'], ['g', 'e', 'n', 'x', 'u']),
  (['g', 'e', 'r'], ['g', 'e', 'r', 'k', 'u']),
  (['g', 'e', 'r', 'k'], ['g', 'e', 'r', 'k', 'u']),
  (['g', 'e', 'r', 'n'], ['g', 'e', 'r', 'n', 'a']),
  (['g', 'e', 't'], ['g', 'e', 'n', 't', 'o']),
  (['g', 'e', 'x'], ['g', 'e', 'n', 'x', 'u']),
  (['g', 'i', '\'', 'a'], ['g', 'i', 'd', 'v', 'a']),
  (['g', 'i', '\'', 'e'], ['z', 'g', 'i', 'k', 'e']),
  (['g', 'i', '\'', 'o'], ['g', 'i', 'g', 'd', 'o']),
  (['g', 'i', '\'', 'u'], ['g', 'i', 's', 'm', 'u']),
  (['g', 'i', 'c'], ['g', 'l', 'i', 'c', 'o']),
  (['g', 'i', 'd'], ['g', 'i', 'd', 'v', 'a']),
  (['g', 'i', 'd', 'v'], ['g', 'i', 'd', 'v', 'a']),
  (['g', 'i', 'g'], ['g', 'i', 'g', 'd', 'o']),
  (['g', 'i', 'g', 'd'], ['g', 'i', 'g', 'd', 'o']),
  (['g', 'i', 'k'], ['g', 'i', 'n', 'k', 'a']),
  (['g', 'i', 'm'], ['g', 'i', 's', 'm', 'u']),
  (['g', 'i', 'n'], ['j', 'g', 'i', 'n', 'a']),
  (['g', 'i', 'n', 'k'], ['g', 'i', 'n', 'k', 'a']),
  (['g', 'i', 'r'], ['g', 'i', 'r', 'z', 'u']),
  (['g', 'i', 'r', 'z'], ['g', 'i', 'r', 'z', 'u']),
  (['g', 'i', 's', 'm'], ['g', 'i', 's', 'm', 'u']),
  (['g', 'i', 't'], ['j', 'g', 'i', 't', 'a']),
  (['g', 'l', 'a'], ['g', 'l', 'a', 'r', 'e']),
  (['g', 'l', 'a', 'r'], ['g', 'l', 'a', 'r', 'e']),
  (['g', 'l', 'e'], ['g', 'l', 'e', 't', 'u']),
  (['g', 'l', 'e', 'k'], ['g', 'l', 'e', 'k', 'i']),
  (['g', 'l', 'e', 't'], ['g', 'l', 'e', 't', 'u']),
  (['g', 'l', 'i'], ['g', 'l', 'i', 'c', 'o']),
  (['g', 'l', 'i', 'c'], ['g', 'l', 'i', 'c', 'o']),
  (['g', 'l', 'u'], ['g', 'l', 'u', 't', 'a']),
  (['g', 'l', 'u', 't'], ['g', 'l', 'u', 't', 'a']),
  (['g', 'o', 'c'], ['g', 'o', 'c', 't', 'i']),
  (['g', 'o', 'c', 't'], ['g', 'o', 'c', 't', 'i']),
  (['g', 'o', 't'], ['g', 'o', 't', 'r', 'o']),
  (['g', 'o', 't', 'r'], ['g', 'o', 't', 'r', 'o']),
  (['g', 'r', 'a'], ['g', 'r', 'a', 'k', 'e']),
  (['g', 'r', 'a', 'd'], ['g', 'r', 'a', 'd', 'u']),
  (['g', 'r', 'a', 'k'], ['g', 'r', 'a', 'k', 'e']),
  (['g', 'r', 'a', 'n'], ['g', 'r', 'a', 'n', 'a']),
  (['g', 'r', 'a', 's'], ['g', 'r', 'a', 's', 'u']),
  (['g', 'r', 'e'], ['p', 'a', 'g', 'r', 'e']),
  (['g', 'r', 'e', 'k'], ['g', 'r', 'e', 'k', 'u']),
  (['g', 'r', 'i'], ['g', 'i', 'r', 'z', 'u']),
  (['g', 'r', 'u'], ['g', 'u', 'r', 'n', 'i']),
  (['g', 'r', 'u', 's'], ['g', 'r', 'u', 's', 'i']),
  (['g', 'r', 'u', 't'], ['g', 'r', 'u', 't', 'e']),
  (['g', 'u', '\'', 'a'], ['g', 'u', 'n', 'k', 'a']),
  (['g', 'u', '\'', 'e'], ['g', 'u', 'g', 'd', 'e']),
  (['g', 'u', '\'', 'i'], ['g', 'u', 's', 'n', 'i']),
  (['g', 'u', '\'', 'o'], ['g', 'u', 'n', 'r', 'o']),
  (['g', 'u', 'b'], ['g', 'u', 'b', 'n', 'i']),
  (['g', 'u', 'b', 'n'], ['g', 'u', 'b', 'n', 'i']),
  (['g', 'u', 'c'], ['g', 'u', 't', 'c', 'i']),
  (['g', 'u', 'd'], ['g', 'u', 'n', 'd', 'i']),
  (['g', 'u', 'g'], ['g', 'u', 'g', 'd', 'e']),
  (['g', 'u', 'g', 'd'], ['g', 'u', 'g', 'd', 'e']),
  (['g', 'u', 'k'], ['g', 'u', 's', 'k', 'a']),
  (['g', 'u', 'm'], ['g', 'u', 'n', 'm', 'a']),
  (['g', 'u', 'n'], ['g', 'u', 'n', 'k', 'a']),
  (['g', 'u', 'n', 'd'], ['g', 'u', 'n', 'd', 'i']),
  (['g', 'u', 'n', 'k'], ['g', 'u', 'n', 'k', 'a']),
  (['g', 'u', 'n', 'm'], ['g', 'u', 'n', 'm', 'a']),
  (['g', 'u', 'n', 'r'], ['g', 'u', 'n', 'r', 'o']),
  (['g', 'u', 'n', 's'], ['g', 'u', 'n', 's', 'e']),
  (['g', 'u', 'n', 't'], ['g', 'u', 'n', 't', 'a']),
  (['g', 'u', 'r'], ['g', 'u', 'n', 'r', 'o']),
  (['g', 'u', 'r', 'n'], ['g', 'u', 'r', 'n', 'i']),
  (['g', 'u', 's'], ['g', 'u', 's', 'n', 'i']),
  (['g', 'u', 's', 'k'], ['g', 'u', 's', 'k', 'a']),
  (['g', 'u', 's', 'n'], ['g', 'u', 's', 'n', 'i']),
  (['g', 'u', 's', 't'], ['g', 'u', 's', 't', 'a']),
  (['g', 'u', 't'], ['g', 'u', 'n', 't', 'a']),
  (['g', 'u', 't', 'c'], ['g', 'u', 't', 'c', 'i']),
  (['g', 'u', 't', 'r'], ['g', 'u', 't', 'r', 'a']),
  (['g', 'u', 'z'], ['g', 'u', 'z', 'm', 'e']),
  (['g', 'u', 'z', 'm'], ['g', 'u', 'z', 'm', 'e']),
  (['j', 'a', '\'', 'a'], ['j', 'a', 't', 'n', 'a']),
  (['j', 'a', '\'', 'e'], ['j', 'a', 'l', 'g', 'e']),
  (['j', 'a', '\'', 'i'], ['j', 'a', 'd', 'n', 'i']),
  (['j', 'a', '\'', 'o'], ['j', 'a', 'r', 'c', 'o']),
  (['j', 'a', '\'', 'u'], ['j', 'g', 'a', 'l', 'u']),
  (['j', 'a', 'b'], ['j', 'a', 'n', 'b', 'e']),
  (['j', 'a', 'b', 'r'], ['j', 'a', 'b', 'r', 'e']),
  (['j', 'a', 'c'], ['d', 'j', 'a', 'c', 'u']),
  (['j', 'a', 'd'], ['j', 'a', 'd', 'n', 'i']),
  (['j', 'a', 'd', 'n'], ['j', 'a', 'd', 'n', 'i']),
  (['j', 'a', 'f'], ['j', 'a', 'm', 'f', 'u']),
  (['j', 'a', 'g'], ['j', 'a', 'l', 'g', 'e']),
  (['j', 'a', 'i'], ['j', 'g', 'a', 'r', 'i']),
  (['j', 'a', 'j'], ['j', 'm', 'a', 'j', 'i']),
  (['j', 'a', 'k'], ['j', 'a', 'r', 'k', 'i']),
  (['j', 'a', 'k', 'n'], ['j', 'a', 'k', 'n', 'e']),
  (['j', 'a', 'l'], ['j', 'a', 'n', 'l', 'i']),
  (['j', 'a', 'l', 'g'], ['j', 'a', 'l', 'g', 'e']),
  (['j', 'a', 'l', 'n'], ['j', 'a', 'l', 'n', 'a']),
  (['j', 'a', 'l', 'r'], ['j', 'a', 'l', 'r', 'a']),
  (['j', 'a', 'm'], ['j', 'a', 'm', 'n', 'a'])]

/-- `canonluj.inc` as made by `canonluj.pl:8-27` from `reduced_gismu`: rafsi and word, sorted by rafsi, entries 900-999. -/
def r2g9 : List (Word × Word) := [
  (['j', 'a', 'm', 'f'], ['j', 'a', 'm', 'f', 'u']),
  (['j', 'a', 'm', 'n'], ['j', 'a', 'm', 'n', 'a']),
  (['j', 'a', 'n'], ['j', 'a', 'n', 'c', 'o']),
  (['j', 'a', 'n', 'b'], ['j', 'a', 'n', 'b', 'e']),
  (['j', 'a', 'n', 'c'], ['j', 'a', 'n', 'c', 'o']),
  (['j', 'a', 'n', 'l'], ['j', 'a', 'n', 'l', 'i']),
  (['j', 'a', 'n', 's'], ['j', 'a', 'n', 's', 'u']),
  (['j', 'a', 'n', 't'], ['j', 'a', 'n', 't', 'a']),
  (['j', 'a', 'p'], ['j', 'a', 's', 'p', 'u']),
  (['j', 'a', 'r'], ['j', 'd', 'a', 'r', 'i']),
  (['j', 'a', 'r', 'b'], ['j', 'a', 'r', 'b', 'u']),
  (['j', 'a', 'r', 'c'], ['j', 'a', 'r', 'c', 'o']),
  (['j', 'a', 'r', 'k'], ['j', 'a', 'r', 'k', 'i']),
  (['j', 'a', 's'], ['j', 'a', 'n', 's', 'u']),
  (['j', 'a', 's', 'p'], ['j', 'a', 's', 'p', 'u']),
  (['j', 'a', 't'], ['j', 'a', 'n', 't', 'a']),
  (['j', 'a', 't', 'n'], ['j', 'a', 't', 'n', 'a']),
  (['j', 'a', 'u'], ['d', 'j', 'a', 'c', 'u']),
  (['j', 'a', 'v'], ['j', 'a']),
  (['j', 'a', 'v', 'n'], ['j', 'a', 'v', 'n', 'i']),
  (['j', 'b', 'a'], ['j', 'b', 'a', 'r', 'i']),
  (['j', 'b', 'a', 'm'], ['j', 'b', 'a', 'm', 'a']),
  (['j', 'b', 'a', 'r'], ['j', 'b', 'a', 'r', 'i']),
  (['j', 'b', 'e'], ['j', 'b', 'e', 'n', 'a']),
  (['j', 'b', 'e', 'n'], ['j', 'b', 'e', 'n', 'a']),
  (['j', 'b', 'e', 'r'], ['j', 'b', 'e', 'r', 'a']),
  (['j', 'b', 'i'], ['j', 'i', 'b', 'n', 'i']),
  (['j', 'b', 'i', 'n'], ['j', 'b', 'i', 'n', 'i']),
  (['j', 'b', 'o'], ['l', 'o', 'j', 'b', 'o']),
  (['j', 'b', 'u'], ['j', 'u', 'b', 'm', 'e']),
  (['j', 'd', 'a'], ['l', 'i', 'j', 'd', 'a']),
  (['j', 'd', 'a', 'r'], ['j', 'd', 'a', 'r', 'i']),
  (['j', 'd', 'e'], ['k', 'a', 'j', 'd', 'e']),
  (['j', 'd', 'i'], ['j', 'd', 'i', 'c', 'e']),
  (['j', 'd', 'i', 'c'], ['j', 'd', 'i', 'c', 'e']),
  (['j', 'd', 'i', 'k'], ['j', 'd', 'i', 'k', 'a']),
  (['j', 'd', 'i', 'm'], ['j', 'd', 'i', 'm', 'a']),
  (['j', 'd', 'i', 'n'], ['j', 'd', 'i', 'n', 'i']),
  (['j', 'd', 'u'], ['j', 'd', 'u', 'l', 'i']),
  (['j', 'd', 'u', 'l'], ['j', 'd', 'u', 'l', 'i']),
  (['j', 'e', '\'', 'a'], ['j', 'e', 'c', 't', 'a']),
  (['j', 'e', '\'', 'e'], ['j', 'e', 't', 'c', 'e']),
  (['j', 'e', '\'', 'i'], ['j', 'e', 'r', 's', 'i']),
  (['j', 'e', '\'', 'o'], ['j', 'e', 'g', 'v', 'o']),
  (['j', 'e', '\'', 'u'], ['j', 'e', 't', 'n', 'u']),
  (['j', 'e', 'c'], ['j', 'e', 'c', 't', 'a']),
  (['j', 'e', 'c', 't'], ['j', 'e', 'c', 't', 'a']),
  (['j', 'e', 'd'], ['j', 'e', 'n', 'd', 'u']),
  (['j', 'e', 'f'], ['j', 'e', 'f', 't', 'u']),
  (['j', 'e', 'f', 't'], ['j', 'e', 'f', 't', 'u']),
  (['j', 'e', 'g'], ['j', 'e', 'g', 'v', 'o']),
  (['j', 'e', 'g', 'v'], ['j', 'e', 'g', 'v', 'o']),
  (['j', 'e', 'i'], ['j', 'e', 'n', 'm', 'i']),
  (['j', 'e', 'l'], ['j', 'e', 'l', 'c', 'a']),
  (['j', 'e', 'l', 'c'], ['j', 'e', 'l', 'c', 'a']),
  (['j', 'e', 'm'], ['j', 'e', 'n', 'm', 'i']),
  (['j', 'e', 'm', 'n'], ['j', 'e', 'm', 'n', 'a']),
  (['j', 'e', 'n'], ['j', 'e', 'n', 'c', 'a']),
  (['j', 'e', 'n', 'c'], ['j', 'e', 'n', 'c', 'a']),
  (['j', 'e', 'n', 'd'], ['j', 'e', 'n', 'd', 'u']),
  (['j', 'e', 'n', 'm'], ['j', 'e', 'n', 'm', 'i']),
  (['j', 'e', 'r'], ['j', 'b', 'e', 'r', 'a']),
  (['j', 'e', 'r', 'n'], ['j', 'e', 'r', 'n', 'a']),
  (['j', 'e', 'r', 's'], ['j', 'e', 'r', 's', 'i']),
  (['j', 'e', 'r', 'x'], ['j', 'e', 'r', 'x', 'o']),
  (['j', 'e', 's'], ['j', 'e', 's', 'n', 'i']),
  (['j', 'e', 's', 'n'], ['j', 'e', 's', 'n', 'i']),
  (['j', 'e', 't'], ['j', 'e', 't', 'n', 'u']),
  (['j', 'e', 't', 'c'], ['j', 'e', 't', 'c', 'e']),
  (['j', 'e', 't', 'n'], ['j', 'e', 't', 'n', 'u']),
  (['j', 'e', 'v'], ['j', 'e']),
  (['j', 'e', 'x'], ['j', 'e', 'r', 'x', 'o']),
  (['j', 'e', 'z'], ['j', 'e', 'i']),
  (['j', 'g', 'a'], ['j', 'g', 'a', 'n', 'u']),
  (['j', 'g', 'a', 'l'], ['j', 'g', 'a', 'l', 'u']),
  (['j', 'g', 'a', 'n'], ['j', 'g', 'a', 'n', 'u']),
  (['j', 'g', 'a', 'r'], ['j', 'g', 'a', 'r', 'i']),
  (['j', 'g', 'e'], ['j', 'g', 'e', 'n', 'a']),
  (['j', 'g', 'e', 'n'], ['j', 'g', 'e', 'n', 'a']),
  (['j', 'g', 'i'], ['j', 'g', 'i', 'r', 'a']),
  (['j', 'g', 'i', 'n'], ['j', 'g', 'i', 'n', 'a']),
  (['j', 'g', 'i', 'r'], ['j', 'g', 'i', 'r', 'a']),
  (['j', 'g', 'i', 't'], ['j', 'g', 'i', 't', 'a']),
  (['j', 'i', '\'', 'a'], ['j', 'i', 'n', 'g', 'a']),
  (['j', 'i', '\'', 'e'], ['j', 'm', 'i', 'v', 'e']),
  (['j', 'i', '\'', 'i'], ['j', 'i', 'n', 'v', 'i']),
  (['j', 'i', '\'', 'o'], ['j', 'i', 'p', 'n', 'o']),
  (['j', 'i', '\'', 'u'], ['j', 'v', 'i', 'n', 'u']),
  (['j', 'i', 'b'], ['j', 'i', 'b', 'r', 'i']),
  (['j', 'i', 'b', 'n'], ['j', 'i', 'b', 'n', 'i']),
  (['j', 'i', 'b', 'r'], ['j', 'i', 'b', 'r', 'i']),
  (['j', 'i', 'c'], ['j', 'i', 'm', 'c', 'a']),
  (['j', 'i', 'c', 'l'], ['j', 'i', 'c', 'l', 'a']),
  (['j', 'i', 'c', 'm'], ['j', 'i', 'c', 'm', 'u']),
  (['j', 'i', 'f'], ['j', 'i', 't', 'f', 'a']),
  (['j', 'i', 'g'], ['j', 'i', 'n', 'g', 'a']),
  (['j', 'i', 'j'], ['j', 'i', 'j', 'n', 'u']),
  (['j', 'i', 'j', 'n'], ['j', 'i', 'j', 'n', 'u']),
  (['j', 'i', 'k'], ['j', 'i', 'k', 'c', 'a']),
  (['j', 'i', 'k', 'c'], ['j', 'i', 'k', 'c', 'a'])]

/-- `canonluj.inc` as made by `canonluj.pl:8-27` from `reduced_gismu`: rafsi and word, sorted by rafsi, entries 1000-1099. -/
def r2g10 : List (Word × Word) := [
  (['j', 'i', 'k', 'r'], ['j', 'i', 'k', 'r', 'u']),
  (['j', 'i', 'l'], ['j', 'i', 'l', 'k', 'a']),
  (['j', 'i', 'l', 'k'], ['j', 'i', 'l', 'k', 'a']),
  (['j', 'i', 'l', 'r'], ['j', 'i', 'l', 'r', 'a']),
  (['j', 'i', 'm'], ['j', 'i', 'n', 'm', 'e']),
  (['j', 'i', 'm', 'c'], ['j', 'i', 'm', 'c', 'a']),
  (['j', 'i', 'm', 'p'], ['j', 'i', 'm', 'p', 'e']),
  (['j', 'i', 'm', 't'], ['j', 'i', 'm', 't', 'e']),
  (['j', 'i', 'n'], ['d', 'j', 'i', 'n', 'e']),
  (['j', 'i', 'n', 'c'], ['j', 'i', 'n', 'c', 'i']),
  (['j', 'i', 'n', 'g'], ['j', 'i', 'n', 'g', 'a']),
  (['j', 'i', 'n', 'k'], ['j', 'i', 'n', 'k', 'u']),
  (['j', 'i', 'n', 'm'], ['j', 'i', 'n', 'm', 'e']),
  (['j', 'i', 'n', 'r'], ['j', 'i', 'n', 'r', 'u']),
  (['j', 'i', 'n', 's'], ['j', 'i', 'n', 's', 'a']),
  (['j', 'i', 'n', 't'], ['j', 'i', 'n', 't', 'o']),
  (['j', 'i', 'n', 'v'], ['j', 'i', 'n', 'v', 'i']),
  (['j', 'i', 'n', 'z'], ['j', 'i', 'n', 'z', 'i']),
  (['j', 'i', 'p'], ['j', 'i', 'p', 'n', 'o']),
  (['j', 'i', 'p', 'c'], ['j', 'i', 'p', 'c', 'i']),
  (['j', 'i', 'p', 'n'], ['j', 'i', 'p', 'n', 'o']),
  (['j', 'i', 'r'], ['j', 'i', 'n', 'r', 'u']),
  (['j', 'i', 'r', 'n'], ['j', 'i', 'r', 'n', 'a']),
  (['j', 'i', 's'], ['j', 'i', 'n', 's', 'a']),
  (['j', 'i', 's', 'r'], ['j', 'i', 's', 'r', 'a']),
  (['j', 'i', 't'], ['j', 'i', 'm', 't', 'e']),
  (['j', 'i', 't', 'f'], ['j', 'i', 't', 'f', 'a']),
  (['j', 'i', 't', 'r'], ['j', 'i', 't', 'r', 'o']),
  (['j', 'i', 'v'], ['j', 'i', 'n', 'v', 'i']),
  (['j', 'i', 'v', 'b'], ['j', 'i', 'v', 'b', 'u']),
  (['j', 'i', 'v', 'n'], ['j', 'i', 'v', 'n', 'a']),
  (['j', 'i', 'z'], ['j', 'i', 'n', 'z', 'i']),
  (['j', 'm', 'a'], ['j', 'a', 'm', 'f', 'u']),
  (['j', 'm', 'a', 'j'], ['j', 'm', 'a', 'j', 'i']),
  (['j', 'm', 'e'], ['j', 'e', 'm', 'n', 'a']),
  (['j', 'm', 'i'], ['j', 'i', 'm', 'p', 'e']),
  (['j', 'm', 'i', 'f'], ['j', 'm', 'i', 'f', 'a']),
  (['j', 'm', 'i', 'n'], ['j', 'm', 'i', 'n', 'a']),
  (['j', 'm', 'i', 'v'], ['j', 'm', 'i', 'v', 'e']),
  (['j', 'o', '\'', 'e'], ['j', 'o', 'r', 'n', 'e']),
  (['j', 'o', '\'', 'o'], ['j', 'o', 'r', 'd', 'o']),
  (['j', 'o', '\'', 'u'], ['j', 'o', '\'', 'u']),
  (['j', 'o', 'i'], ['j', 'o', 'i']),
  (['j', 'o', 'l'], ['j', 'o', 'i']),
  (['j', 'o', 'm'], ['j', 'o', '\'', 'e']),
  (['j', 'o', 'n'], ['j', 'o', 'r', 'n', 'e']),
  (['j', 'o', 'r'], ['j', 'o', 'r', 'd', 'o']),
  (['j', 'o', 'r', 'd'], ['j', 'o', 'r', 'd', 'o']),
  (['j', 'o', 'r', 'n'], ['j', 'o', 'r', 'n', 'e']),
  (['j', 'o', 'v'], ['j', 'o']),
  (['j', 'u', '\'', 'a'], ['j', 'u', 'f', 'r', 'a']),
  (['j', 'u', '\'', 'e'], ['j', 'u', 'l', 'n', 'e']),
  (['j', 'u', '\'', 'i'], ['j', 'u', 'n', 'd', 'i']),
  (['j', 'u', '\'', 'o'], ['d', 'j', 'u', 'n', 'o']),
  (['j', 'u', 'b'], ['j', 'u', 'b', 'm', 'e']),
  (['j', 'u', 'b', 'm'], ['j', 'u', 'b', 'm', 'e']),
  (['j', 'u', 'd'], ['j', 'u', 'n', 'd', 'i']),
  (['j', 'u', 'd', 'r'], ['j', 'u', 'd', 'r', 'i']),
  (['j', 'u', 'f'], ['j', 'u', 'f', 'r', 'a']),
  (['j', 'u', 'f', 'r'], ['j', 'u', 'f', 'r', 'a']),
  (['j', 'u', 'g'], ['j', 'u', 'n', 'g', 'o']),
  (['j', 'u', 'k'], ['j', 'u', 'k', 'n', 'i']),
  (['j', 'u', 'k', 'n'], ['j', 'u', 'k', 'n', 'i']),
  (['j', 'u', 'k', 'p'], ['j', 'u', 'k', 'p', 'a']),
  (['j', 'u', 'l'], ['j', 'u', 'n', 'l', 'a']),
  (['j', 'u', 'l', 'n'], ['j', 'u', 'l', 'n', 'e']),
  (['j', 'u', 'm'], ['j', 'u', 'r', 'm', 'e']),
  (['j', 'u', 'n'], ['d', 'j', 'u', 'n', 'o']),
  (['j', 'u', 'n', 'd'], ['j', 'u', 'n', 'd', 'i']),
  (['j', 'u', 'n', 'g'], ['j', 'u', 'n', 'g', 'o']),
  (['j', 'u', 'n', 'l'], ['j', 'u', 'n', 'l', 'a']),
  (['j', 'u', 'n', 'r'], ['j', 'u', 'n', 'r', 'i']),
  (['j', 'u', 'n', 't'], ['j', 'u', 'n', 't', 'a']),
  (['j', 'u', 'p'], ['j', 'u', 'k', 'p', 'a']),
  (['j', 'u', 'r'], ['j', 'u', 'n', 'r', 'i']),
  (['j', 'u', 'r', 'm'], ['j', 'u', 'r', 'm', 'e']),
  (['j', 'u', 'r', 's'], ['j', 'u', 'r', 's', 'a']),
  (['j', 'u', 's'], ['j', 'u', 'r', 's', 'a']),
  (['j', 'u', 't'], ['j', 'u', 't', 's', 'i']),
  (['j', 'u', 't', 's'], ['j', 'u', 't', 's', 'i']),
  (['j', 'u', 'v'], ['j', 'u']),
  (['j', 'u', 'x'], ['j', 'u', 'x', 'r', 'e']),
  (['j', 'u', 'x', 'r'], ['j', 'u', 'x', 'r', 'e']),
  (['j', 'v', 'a'], ['j', 'a', 'v', 'n', 'i']),
  (['j', 'v', 'e'], ['j', 'e']),
  (['j', 'v', 'i'], ['j', 'i', 'v', 'n', 'a']),
  (['j', 'v', 'i', 'n'], ['j', 'v', 'i', 'n', 'u']),
  (['j', 'v', 'o'], ['l', 'u', 'j', 'v', 'o']),
  (['k', 'a', '\'', 'a'], ['k', 'a', 't', 'n', 'a']),
  (['k', 'a', '\'', 'e'], ['k', 'a', 'k', 'n', 'e']),
  (['k', 'a', '\'', 'i'], ['k', 'r', 'a', 't', 'i']),
  (['k', 'a', '\'', 'o'], ['k', 'a', 'n', 'r', 'o']),
  (['k', 'a', '\'', 'u'], ['k', 'a', 'n', 't', 'u']),
  (['k', 'a', 'b'], ['k', 'a', 'r', 'b', 'i']),
  (['k', 'a', 'b', 'r'], ['k', 'a', 'b', 'r', 'i']),
  (['k', 'a', 'c'], ['k', 'a', 'n', 'c', 'u']),
  (['k', 'a', 'c', 'm'], ['k', 'a', 'c', 'm', 'a']),
  (['k', 'a', 'd'], ['k', 'a', 'n', 'd', 'i']),
  (['k', 'a', 'd', 'n'], ['k', 'a', 'd', 'n', 'o']),
  (['k', 'a', 'f'], ['c', 'k', 'a', 'f', 'i'])]

/-- `canonluj.inc` as made by `canonluj.pl:8-27` from `reduced_gismu`: rafsi and word, sorted by rafsi, entries 1100-1199. -/
def r2g11 : List (Word × Word) := [
  (['k', 'a', 'f', 'k'], ['k', 'a', 'f', 'k', 'e']),
  (['k', 'a', 'g'], ['k', 'a', 'g', 'n', 'i']),
  (['k', 'a', 'g', 'n'], ['k', 'a', 'g', 'n', 'i']),
  (['k', 'a', 'i'], ['c', 'k', 'a', 'j', 'i']),
  (['k', 'a', 'j'], ['k', 'a', 'n', 'j', 'i']),
  (['k', 'a', 'j', 'd'], ['k', 'a', 'j', 'd', 'e']),
  (['k', 'a', 'j', 'n'], ['k', 'a', 'j', 'n', 'a']),
  (['k', 'a', 'k'], ['k', 'l', 'a', 'k', 'u']),
  (['k', 'a', 'k', 'n'], ['k', 'a', 'k', 'n', 'e']),
  (['k', 'a', 'k', 'p'], ['k', 'a', 'k', 'p', 'a']),
  (['k', 'a', 'l'], ['k', 'a', 'n', 'l', 'a']),
  (['k', 'a', 'l', 'c'], ['k', 'a', 'l', 'c', 'i']),
  (['k', 'a', 'l', 'r'], ['k', 'a', 'l', 'r', 'i']),
  (['k', 'a', 'l', 's'], ['k', 'a', 'l', 's', 'a']),
  (['k', 'a', 'l', 't'], ['k', 'a', 'l', 't', 'e']),
  (['k', 'a', 'm'], ['k', 'a']),
  (['k', 'a', 'm', 'j'], ['k', 'a', 'm', 'j', 'u']),
  (['k', 'a', 'm', 'n'], ['k', 'a', 'm', 'n', 'i']),
  (['k', 'a', 'm', 'p'], ['k', 'a', 'm', 'p', 'u']),
  (['k', 'a', 'n'], ['k', 'a', 'n', 's', 'a']),
  (['k', 'a', 'n', 'b'], ['k', 'a', 'n', 'b', 'a']),
  (['k', 'a', 'n', 'c'], ['k', 'a', 'n', 'c', 'u']),
  (['k', 'a', 'n', 'd'], ['k', 'a', 'n', 'd', 'i']),
  (['k', 'a', 'n', 'j'], ['k', 'a', 'n', 'j', 'i']),
  (['k', 'a', 'n', 'l'], ['k', 'a', 'n', 'l', 'a']),
  (['k', 'a', 'n', 'r'], ['k', 'a', 'n', 'r', 'o']),
  (['k', 'a', 'n', 's'], ['k', 'a', 'n', 's', 'a']),
  (['k', 'a', 'n', 't'], ['k', 'a', 'n', 't', 'u']),
  (['k', 'a', 'n', 'x'], ['k', 'a', 'n', 'x', 'e']),
  (['k', 'a', 'p'], ['s', 'k', 'a', 'p', 'i']),
  (['k', 'a', 'r'], ['k', 'a', 'l', 'r', 'i']),
  (['k', 'a', 'r', 'b'], ['k', 'a', 'r', 'b', 'i']),
  (['k', 'a', 'r', 'c'], ['k', 'a', 'r', 'c', 'e']),
  (['k', 'a', 'r', 'd'], ['k', 'a', 'r', 'd', 'a']),
  (['k', 'a', 'r', 'g'], ['k', 'a', 'r', 'g', 'u']),
  (['k', 'a', 'r', 'l'], ['k', 'a', 'r', 'l', 'i']),
  (['k', 'a', 'r', 'n'], ['k', 'a', 'r', 'n', 'i']),
  (['k', 'a', 's'], ['k', 'a', 'l', 's', 'a']),
  (['k', 'a', 't'], ['k', 'a', 'l', 't', 'e']),
  (['k', 'a', 't', 'n'], ['k', 'a', 't', 'n', 'a']),
  (['k', 'a', 'u'], ['k', 'a', 'm', 'p', 'u']),
  (['k', 'a', 'v'], ['k', 'a', 'v', 'b', 'u']),
  (['k', 'a', 'v', 'b'], ['k', 'a', 'v', 'b', 'u']),
  (['k', 'a', 'x'], ['k', 'a', 'n', 'x', 'e']),
  (['k', 'e', '\'', 'a'], ['k', 'e', 'v', 'n', 'a']),
  (['k', 'e', '\'', 'e'], ['k', 'e', '\'', 'e']),
  (['k', 'e', '\'', 'i'], ['k', 'e', 'c', 't', 'i']),
  (['k', 'e', '\'', 'o'], ['k', 'e', 'l', 'v', 'o']),
  (['k', 'e', '\'', 'u'], ['k', 'r', 'e', 'f', 'u']),
  (['k', 'e', 'c'], ['k', 'e', 'c', 't', 'i']),
  (['k', 'e', 'c', 't'], ['k', 'e', 'c', 't', 'i']),
  (['k', 'e', 'i'], ['k', 'e', 'l', 'c', 'i']),
  (['k', 'e', 'j'], ['c', 'k', 'e', 'j', 'i']),
  (['k', 'e', 'l'], ['k', 'e', 'l', 'c', 'i']),
  (['k', 'e', 'l', 'c'], ['k', 'e', 'l', 'c', 'i']),
  (['k', 'e', 'l', 'v'], ['k', 'e', 'l', 'v', 'o']),
  (['k', 'e', 'm'], ['k', 'e']),
  (['k', 'e', 'n'], ['k', 'e', 'n', 'r', 'a']),
  (['k', 'e', 'n', 'r'], ['k', 'e', 'n', 'r', 'a']),
  (['k', 'e', 'n', 's'], ['k', 'e', 'n', 's', 'a']),
  (['k', 'e', 'p'], ['k', 'e', '\'', 'e']),
  (['k', 'e', 'r'], ['k', 'e', 'r', 'l', 'o']),
  (['k', 'e', 'r', 'f'], ['k', 'e', 'r', 'f', 'a']),
  (['k', 'e', 'r', 'l'], ['k', 'e', 'r', 'l', 'o']),
  (['k', 'e', 's'], ['k', 'e', 'n', 's', 'a']),
  (['k', 'e', 't'], ['k', 'e', 't', 'c', 'o']),
  (['k', 'e', 't', 'c'], ['k', 'e', 't', 'c', 'o']),
  (['k', 'e', 'v'], ['k', 'e', 'v', 'n', 'a']),
  (['k', 'e', 'v', 'n'], ['k', 'e', 'v', 'n', 'a']),
  (['k', 'e', 'z'], ['k', 'e', 'i']),
  (['k', 'i', '\'', 'a'], ['k', 'r', 'i', 'x', 'a']),
  (['k', 'i', '\'', 'e'], ['k', 'i', 'c', 'n', 'e']),
  (['k', 'i', '\'', 'i'], ['c', 'k', 'i', 'n', 'i']),
  (['k', 'i', '\'', 'o'], ['k', 'i', 'l', 't', 'o']),
  (['k', 'i', '\'', 'u'], ['k', 'r', 'i', 'n', 'u']),
  (['k', 'i', 'c'], ['k', 'i', 'c', 'n', 'e']),
  (['k', 'i', 'c', 'n'], ['k', 'i', 'c', 'n', 'e']),
  (['k', 'i', 'j'], ['k', 'i', 'j', 'n', 'o']),
  (['k', 'i', 'j', 'n'], ['k', 'i', 'j', 'n', 'o']),
  (['k', 'i', 'k'], ['c', 'k', 'i', 'k', 'u']),
  (['k', 'i', 'l'], ['k', 'i', 'n', 'l', 'i']),
  (['k', 'i', 'l', 't'], ['k', 'i', 'l', 't', 'o']),
  (['k', 'i', 'n'], ['s', 'k', 'i', 'n', 'a']),
  (['k', 'i', 'n', 'l'], ['k', 'i', 'n', 'l', 'i']),
  (['k', 'i', 'r'], ['c', 'k', 'i', 'r', 'e']),
  (['k', 'i', 's'], ['k', 'i', 's', 't', 'o']),
  (['k', 'i', 's', 't'], ['k', 'i', 's', 't', 'o']),
  (['k', 'i', 't'], ['k', 'l', 'i', 't', 'i']),
  (['k', 'i', 'x'], ['k', 'r', 'i', 'x', 'a']),
  (['k', 'l', 'a'], ['k', 'l', 'a', 'm', 'a']),
  (['k', 'l', 'a', 'j'], ['k', 'l', 'a', 'j', 'i']),
  (['k', 'l', 'a', 'k'], ['k', 'l', 'a', 'k', 'u']),
  (['k', 'l', 'a', 'm'], ['k', 'l', 'a', 'm', 'a']),
  (['k', 'l', 'a', 'n'], ['k', 'l', 'a', 'n', 'i']),
  (['k', 'l', 'e'], ['k', 'l', 'e', 's', 'i']),
  (['k', 'l', 'e', 's'], ['k', 'l', 'e', 's', 'i']),
  (['k', 'l', 'i'], ['k', 'l', 'i', 'n', 'a']),
  (['k', 'l', 'i', 'n'], ['k', 'l', 'i', 'n', 'a']),
  (['k', 'l', 'i', 'r'], ['k', 'l', 'i', 'r', 'u']),
  (['k', 'l', 'i', 't'], ['k', 'l', 'i', 't', 'i'])]

/-- `canonluj.inc` as made by `canonluj.pl:8-27` from `reduced_gismu`: rafsi and word, sorted by rafsi, entries 1200-1299. -/
def r2g12 : List (Word × Word) := [
  (['k', 'l', 'o'], ['d', 'i', 'k', 'l', 'o']),
  (['k', 'l', 'u'], ['k', 'u', 'l', 'n', 'u']),
  (['k', 'l', 'u', 'p'], ['k', 'l', 'u', 'p', 'e']),
  (['k', 'l', 'u', 'z'], ['k', 'l', 'u', 'z', 'a']),
  (['k', 'o', '\'', 'a'], ['k', 'o', 'j', 'n', 'a']),
  (['k', 'o', '\'', 'e'], ['k', 'o', 'l', 'm', 'e']),
  (['k', 'o', '\'', 'i'], ['k', 'o', 'b', 'l', 'i']),
  (['k', 'o', '\'', 'o'], ['s', 'k', 'o', 't', 'o']),
  (['k', 'o', '\'', 'u'], ['k', 'o', 'n', 'j', 'u']),
  (['k', 'o', 'b'], ['k', 'o', 'b', 'l', 'i']),
  (['k', 'o', 'b', 'l'], ['k', 'o', 'b', 'l', 'i']),
  (['k', 'o', 'i'], ['k', 'o', 'r', 'b', 'i']),
  (['k', 'o', 'j'], ['k', 'o', 'j', 'n', 'a']),
  (['k', 'o', 'j', 'n'], ['k', 'o', 'j', 'n', 'a']),
  (['k', 'o', 'k'], ['k', 'o', 'r', 'k', 'a']),
  (['k', 'o', 'l'], ['k', 'o', 'l', 'm', 'e']),
  (['k', 'o', 'l', 'm'], ['k', 'o', 'l', 'm', 'e']),
  (['k', 'o', 'm'], ['k', 'o', 'm', 'c', 'u']),
  (['k', 'o', 'm', 'c'], ['k', 'o', 'm', 'c', 'u']),
  (['k', 'o', 'n'], ['k', 'o', 'n', 'j', 'u']),
  (['k', 'o', 'n', 'j'], ['k', 'o', 'n', 'j', 'u']),
  (['k', 'o', 'r'], ['k', 'o', 'r', 'b', 'i']),
  (['k', 'o', 'r', 'b'], ['k', 'o', 'r', 'b', 'i']),
  (['k', 'o', 'r', 'c'], ['k', 'o', 'r', 'c', 'u']),
  (['k', 'o', 'r', 'k'], ['k', 'o', 'r', 'k', 'a']),
  (['k', 'o', 's'], ['k', 'o', 's', 't', 'a']),
  (['k', 'o', 's', 't'], ['k', 'o', 's', 't', 'a']),
  (['k', 'o', 't'], ['s', 'k', 'o', 't', 'o']),
  (['k', 'r', 'a'], ['k', 'r', 'a', 's', 'i']),
  (['k', 'r', 'a', 'm'], ['k', 'r', 'a', 'm', 'u']),
  (['k', 'r', 'a', 's'], ['k', 'r', 'a', 's', 'i']),
  (['k', 'r', 'a', 't'], ['k', 'r', 'a', 't', 'i']),
  (['k', 'r', 'e'], ['k', 'e', 'r', 'f', 'a']),
  (['k', 'r', 'e', 'f'], ['k', 'r', 'e', 'f', 'u']),
  (['k', 'r', 'i'], ['k', 'r', 'i', 'c', 'i']),
  (['k', 'r', 'i', 'c'], ['k', 'r', 'i', 'c', 'i']),
  (['k', 'r', 'i', 'l'], ['k', 'r', 'i', 'l', 'i']),
  (['k', 'r', 'i', 'n'], ['k', 'r', 'i', 'n', 'u']),
  (['k', 'r', 'i', 'x'], ['k', 'r', 'i', 'x', 'a']),
  (['k', 'r', 'o'], ['k', 'o', 'r', 'c', 'u']),
  (['k', 'r', 'u'], ['k', 'r', 'u', 'v', 'i']),
  (['k', 'r', 'u', 'c'], ['k', 'r', 'u', 'c', 'a']),
  (['k', 'r', 'u', 'j'], ['k', 'r', 'u', 'j', 'i']),
  (['k', 'r', 'u', 'v'], ['k', 'r', 'u', 'v', 'i']),
  (['k', 'u', '\'', 'a'], ['k', 'u', 'm', 'f', 'a']),
  (['k', 'u', '\'', 'e'], ['k', 'u', 's', 'p', 'e']),
  (['k', 'u', '\'', 'i'], ['k', 'u', 'r', 'j', 'i']),
  (['k', 'u', '\'', 'o'], ['s', 'k', 'u', 'r', 'o']),
  (['k', 'u', '\'', 'u'], ['c', 'k', 'u', 'n', 'u']),
  (['k', 'u', 'b'], ['k', 'u', 'b', 'l', 'i']),
  (['k', 'u', 'b', 'l'], ['k', 'u', 'b', 'l', 'i']),
  (['k', 'u', 'c'], ['k', 'r', 'u', 'c', 'a']),
  (['k', 'u', 'c', 'l'], ['k', 'u', 'c', 'l', 'i']),
  (['k', 'u', 'f'], ['k', 'u', 'f', 'r', 'a']),
  (['k', 'u', 'f', 'r'], ['k', 'u', 'f', 'r', 'a']),
  (['k', 'u', 'j'], ['k', 'u', 'r', 'j', 'i']),
  (['k', 'u', 'k'], ['k', 'u', 'k', 't', 'e']),
  (['k', 'u', 'k', 't'], ['k', 'u', 'k', 't', 'e']),
  (['k', 'u', 'l'], ['c', 'k', 'u', 'l', 'e']),
  (['k', 'u', 'l', 'n'], ['k', 'u', 'l', 'n', 'u']),
  (['k', 'u', 'm'], ['k', 'u', 'm', 'f', 'a']),
  (['k', 'u', 'm', 'f'], ['k', 'u', 'm', 'f', 'a']),
  (['k', 'u', 'm', 't'], ['k', 'u', 'm', 't', 'e']),
  (['k', 'u', 'n'], ['k', 'u', 'n', 'r', 'a']),
  (['k', 'u', 'n', 'r'], ['k', 'u', 'n', 'r', 'a']),
  (['k', 'u', 'n', 't'], ['k', 'u', 'n', 't', 'i']),
  (['k', 'u', 'p'], ['k', 'u', 's', 'p', 'e']),
  (['k', 'u', 'r'], ['k', 'u', 'r', 'f', 'a']),
  (['k', 'u', 'r', 'f'], ['k', 'u', 'r', 'f', 'a']),
  (['k', 'u', 'r', 'j'], ['k', 'u', 'r', 'j', 'i']),
  (['k', 'u', 'r', 'k'], ['k', 'u', 'r', 'k', 'i']),
  (['k', 'u', 's'], ['k', 'u', 's', 'r', 'u']),
  (['k', 'u', 's', 'p'], ['k', 'u', 's', 'p', 'e']),
  (['k', 'u', 's', 'r'], ['k', 'u', 's', 'r', 'u']),
  (['k', 'u', 't'], ['k', 'u', 'n', 't', 'i']),
  (['k', 'u', 'z'], ['k', 'u', '\'', 'a']),
  (['l', 'a', '\'', 'a'], ['l', 'a', 's', 'n', 'a']),
  (['l', 'a', '\'', 'e'], ['l', 'a', 'k', 'n', 'e']),
  (['l', 'a', '\'', 'i'], ['l', 'a', 'm', 'j', 'i']),
  (['l', 'a', '\'', 'o'], ['l', 'a', 't', 'm', 'o']),
  (['l', 'a', '\'', 'u'], ['l', 'a', 'l', 'x', 'u']),
  (['l', 'a', 'b'], ['b', 'l', 'a', 'b', 'i']),
  (['l', 'a', 'b', 'n'], ['l', 'a', 'b', 'n', 'o']),
  (['l', 'a', 'c'], ['l', 'a', 'c', 'r', 'i']),
  (['l', 'a', 'c', 'p'], ['l', 'a', 'c', 'p', 'u']),
  (['l', 'a', 'c', 'r'], ['l', 'a', 'c', 'r', 'i']),
  (['l', 'a', 'd'], ['l', 'a', 'd', 'r', 'u']),
  (['l', 'a', 'd', 'r'], ['l', 'a', 'd', 'r', 'u']),
  (['l', 'a', 'f'], ['l', 'a', 'f', 't', 'i']),
  (['l', 'a', 'f', 't'], ['l', 'a', 'f', 't', 'i']),
  (['l', 'a', 'g'], ['v', 'l', 'a', 'g', 'i']),
  (['l', 'a', 'i'], ['k', 'l', 'a', 'n', 'i']),
  (['l', 'a', 'j'], ['k', 'l', 'a', 'j', 'i']),
  (['l', 'a', 'k'], ['l', 'a', 'k', 's', 'e']),
  (['l', 'a', 'k', 'n'], ['l', 'a', 'k', 'n', 'e']),
  (['l', 'a', 'k', 's'], ['l', 'a', 'k', 's', 'e']),
  (['l', 'a', 'l'], ['l', 'a', 'n', 'l', 'i']),
  (['l', 'a', 'l', 'x'], ['l', 'a', 'l', 'x', 'u']),
  (['l', 'a', 'm'], ['l', 'a', 'm', 'j', 'i']),
  (['l', 'a', 'm', 'j'], ['l', 'a', 'm', 'j', 'i'])]

/-- `canonluj.inc` as made by `canonluj.pl:8-27` from `reduced_gismu`: rafsi and word, sorted by rafsi, entries 1300-1399. -/
def r2g13 : List (Word × Word) := [
  (['l', 'a', 'n'], ['l', 'a', 'n', 'm', 'e']),
  (['l', 'a', 'n', 'b'], ['l', 'a', 'n', 'b', 'i']),
  (['l', 'a', 'n', 'c'], ['l', 'a', 'n', 'c', 'i']),
  (['l', 'a', 'n', 'k'], ['l', 'a', 'n', 'k', 'a']),
  (['l', 'a', 'n', 'l'], ['l', 'a', 'n', 'l', 'i']),
  (['l', 'a', 'n', 'm'], ['l', 'a', 'n', 'm', 'e']),
  (['l', 'a', 'n', 't'], ['l', 'a', 'n', 't', 'e']),
  (['l', 'a', 'n', 'x'], ['l', 'a', 'n', 'x', 'e']),
  (['l', 'a', 'n', 'z'], ['l', 'a', 'n', 'z', 'u']),
  (['l', 'a', 'p'], ['l', 'a', 'c', 'p', 'u']),
  (['l', 'a', 'r'], ['l', 'a', 'r', 'c', 'u']),
  (['l', 'a', 'r', 'c'], ['l', 'a', 'r', 'c', 'u']),
  (['l', 'a', 's'], ['s', 'l', 'a', 's', 'i']),
  (['l', 'a', 's', 'n'], ['l', 'a', 's', 'n', 'a']),
  (['l', 'a', 's', 't'], ['l', 'a', 's', 't', 'u']),
  (['l', 'a', 't'], ['m', 'l', 'a', 't', 'u']),
  (['l', 'a', 't', 'm'], ['l', 'a', 't', 'm', 'o']),
  (['l', 'a', 't', 'n'], ['l', 'a', 't', 'n', 'a']),
  (['l', 'a', 'u'], ['c', 'l', 'a', 'd', 'u']),
  (['l', 'a', 'x'], ['l', 'a', 'n', 'x', 'e']),
  (['l', 'a', 'z'], ['l', 'a', 'n', 'z', 'u']),
  (['l', 'a', 'z', 'n'], ['l', 'a', 'z', 'n', 'i']),
  (['l', 'e', '\'', 'a'], ['l', 'e', 'b', 'n', 'a']),
  (['l', 'e', '\'', 'i'], ['p', 'l', 'e', 'j', 'i']),
  (['l', 'e', '\'', 'o'], ['l', 'e', 'n', 'j', 'o']),
  (['l', 'e', '\'', 'u'], ['l', 'e', 'r', 'f', 'u']),
  (['l', 'e', 'b'], ['l', 'e', 'b', 'n', 'a']),
  (['l', 'e', 'b', 'n'], ['l', 'e', 'b', 'n', 'a']),
  (['l', 'e', 'c'], ['l', 'e', 'r', 'c', 'i']),
  (['l', 'e', 'd'], ['m', 'l', 'e', 'd', 'i']),
  (['l', 'e', 'i'], ['k', 'l', 'e', 's', 'i']),
  (['l', 'e', 'j'], ['p', 'l', 'e', 'j', 'i']),
  (['l', 'e', 'k'], ['l', 'e', 'n', 'k', 'u']),
  (['l', 'e', 'm'], ['l', 'e', '\'', 'e']),
  (['l', 'e', 'n'], ['l', 'e', 'n', 'j', 'o']),
  (['l', 'e', 'n', 'j'], ['l', 'e', 'n', 'j', 'o']),
  (['l', 'e', 'n', 'k'], ['l', 'e', 'n', 'k', 'u']),
  (['l', 'e', 'r'], ['l', 'e', 'r', 'f', 'u']),
  (['l', 'e', 'r', 'c'], ['l', 'e', 'r', 'c', 'i']),
  (['l', 'e', 'r', 'f'], ['l', 'e', 'r', 'f', 'u']),
  (['l', 'e', 't'], ['g', 'l', 'e', 't', 'u']),
  (['l', 'i', '\'', 'a'], ['c', 'l', 'i', 'v', 'a']),
  (['l', 'i', '\'', 'e'], ['l', 'i', 'd', 'n', 'e']),
  (['l', 'i', '\'', 'i'], ['l', 'i', 'n', 'j', 'i']),
  (['l', 'i', '\'', 'o'], ['l', 'i', 'n', 't', 'o']),
  (['l', 'i', '\'', 'u'], ['l', 'i', 't', 'r', 'u']),
  (['l', 'i', 'b'], ['l', 'i', 'b', 'j', 'o']),
  (['l', 'i', 'b', 'j'], ['l', 'i', 'b', 'j', 'o']),
  (['l', 'i', 'c'], ['l', 'i', 't', 'c', 'e']),
  (['l', 'i', 'd'], ['l', 'i', 'n', 'd', 'i']),
  (['l', 'i', 'd', 'n'], ['l', 'i', 'd', 'n', 'e']),
  (['l', 'i', 'f'], ['l', 'i', 'f', 'r', 'i']),
  (['l', 'i', 'f', 'r'], ['l', 'i', 'f', 'r', 'i']),
  (['l', 'i', 'g'], ['s', 'l', 'i', 'g', 'u']),
  (['l', 'i', 'j'], ['l', 'i', 'n', 'j', 'i']),
  (['l', 'i', 'j', 'd'], ['l', 'i', 'j', 'd', 'a']),
  (['l', 'i', 'k'], ['l', 'i', 't', 'k', 'i']),
  (['l', 'i', 'l'], ['l', 'i', 'v', 'l', 'a']),
  (['l', 'i', 'm'], ['l', 'i', 'm', 'n', 'a']),
  (['l', 'i', 'm', 'n'], ['l', 'i', 'm', 'n', 'a']),
  (['l', 'i', 'n'], ['l', 'i', 'n', 's', 'i']),
  (['l', 'i', 'n', 'd'], ['l', 'i', 'n', 'd', 'i']),
  (['l', 'i', 'n', 'j'], ['l', 'i', 'n', 'j', 'i']),
  (['l', 'i', 'n', 's'], ['l', 'i', 'n', 's', 'i']),
  (['l', 'i', 'n', 't'], ['l', 'i', 'n', 't', 'o']),
  (['l', 'i', 'r'], ['c', 'l', 'i', 'r', 'a']),
  (['l', 'i', 's'], ['l', 'i', 's', 'r', 'i']),
  (['l', 'i', 's', 'r'], ['l', 'i', 's', 'r', 'i']),
  (['l', 'i', 's', 't'], ['l', 'i', 's', 't', 'e']),
  (['l', 'i', 't'], ['c', 'l', 'i', 't', 'e']),
  (['l', 'i', 't', 'c'], ['l', 'i', 't', 'c', 'e']),
  (['l', 'i', 't', 'k'], ['l', 'i', 't', 'k', 'i']),
  (['l', 'i', 't', 'r'], ['l', 'i', 't', 'r', 'u']),
  (['l', 'i', 'v'], ['c', 'l', 'i', 'v', 'a']),
  (['l', 'i', 'v', 'g'], ['l', 'i', 'v', 'g', 'a']),
  (['l', 'i', 'v', 'l'], ['l', 'i', 'v', 'l', 'a']),
  (['l', 'i', 'x'], ['p', 'l', 'i', 'x', 'a']),
  (['l', 'i', 'z'], ['l', 'i', '\'', 'i']),
  (['l', 'o', '\'', 'i'], ['b', 'l', 'o', 't', 'i']),
  (['l', 'o', '\'', 'o'], ['s', 'l', 'o', 'v', 'o']),
  (['l', 'o', '\'', 'u'], ['l', 'o', 'r', 'x', 'u']),
  (['l', 'o', 'b'], ['l', 'o', 'j', 'b', 'o']),
  (['l', 'o', 'g', 'j'], ['l', 'o', 'g', 'j', 'i']),
  (['l', 'o', 'i'], ['l', 'o', 'l', 'd', 'i']),
  (['l', 'o', 'j'], ['l', 'o', 'g', 'j', 'i']),
  (['l', 'o', 'j', 'b'], ['l', 'o', 'j', 'b', 'o']),
  (['l', 'o', 'l'], ['l', 'o', 'l', 'd', 'i']),
  (['l', 'o', 'l', 'd'], ['l', 'o', 'l', 'd', 'i']),
  (['l', 'o', 'm'], ['l', 'o', '\'', 'e']),
  (['l', 'o', 'r'], ['l', 'o', 'r', 'x', 'u']),
  (['l', 'o', 'r', 'x'], ['l', 'o', 'r', 'x', 'u']),
  (['l', 'o', 't'], ['b', 'l', 'o', 't', 'i']),
  (['l', 'o', 'v'], ['s', 'l', 'o', 'v', 'o']),
  (['l', 'u', '\'', 'a'], ['p', 'l', 'u', 't', 'a']),
  (['l', 'u', '\'', 'e'], ['k', 'l', 'u', 'p', 'e']),
  (['l', 'u', '\'', 'i'], ['l', 'u', 'm', 'c', 'i']),
  (['l', 'u', '\'', 'o'], ['l', 'u', 'b', 'n', 'o']),
  (['l', 'u', 'b'], ['l', 'u', 'n', 'b', 'e']),
  (['l', 'u', 'b', 'n'], ['l', 'u', 'b', 'n', 'o']),
  (['l', 'u', 'j'], ['p', 'l', 'u', 'j', 'a'])]

/-- `canonluj.inc` as made by `canonluj.pl:8-27` from `reduced_gismu`: rafsi and word, sorted by rafsi, entries 1400-1499. -/
def r2g14 : List (Word × Word) := [
  (['l', 'u', 'j', 'v'], ['l', 'u', 'j', 'v', 'o']),
  (['l', 'u', 'm'], ['l', 'u', 'm', 'c', 'i']),
  (['l', 'u', 'm', 'c'], ['l', 'u', 'm', 'c', 'i']),
  (['l', 'u', 'n'], ['m', 'l', 'u', 'n', 'i']),
  (['l', 'u', 'n', 'b'], ['l', 'u', 'n', 'b', 'e']),
  (['l', 'u', 'n', 'r'], ['l', 'u', 'n', 'r', 'a']),
  (['l', 'u', 'n', 's'], ['l', 'u', 'n', 's', 'a']),
  (['l', 'u', 'p'], ['k', 'l', 'u', 'p', 'e']),
  (['l', 'u', 'r'], ['l', 'u', 'n', 'r', 'a']),
  (['l', 'u', 's'], ['l', 'u', 'n', 's', 'a']),
  (['l', 'u', 't'], ['p', 'l', 'u', 't', 'a']),
  (['l', 'u', 'v'], ['l', 'u', 'j', 'v', 'o']),
  (['l', 'u', 'z'], ['k', 'l', 'u', 'z', 'a']),
  (['m', 'a', '\'', 'a'], ['c', 'm', 'a', 'n', 'a']),
  (['m', 'a', '\'', 'e'], ['m', 'a', 'r', 'c', 'e']),
  (['m', 'a', '\'', 'i'], ['m', 'a', 's', 't', 'i']),
  (['m', 'a', '\'', 'o'], ['c', 'm', 'a', 'v', 'o']),
  (['m', 'a', '\'', 'u'], ['m', 'a', 'k', 'c', 'u']),
  (['m', 'a', 'b'], ['m', 'a', 'b', 'r', 'u']),
  (['m', 'a', 'b', 'l'], ['m', 'a', 'b', 'l', 'a']),
  (['m', 'a', 'b', 'r'], ['m', 'a', 'b', 'r', 'u']),
  (['m', 'a', 'c'], ['m', 'a', 'n', 'c', 'i']),
  (['m', 'a', 'c', 'n'], ['m', 'a', 'c', 'n', 'u']),
  (['m', 'a', 'd'], ['m', 'a', 'r', 'd', 'e']),
  (['m', 'a', 'f'], ['m', 'a', 'k', 'f', 'a']),
  (['m', 'a', 'g'], ['m', 'a', 'r', 'g', 'u']),
  (['m', 'a', 'i'], ['m', 'a', 'r', 'j', 'i']),
  (['m', 'a', 'j'], ['m', 'a', 'r', 'j', 'i']),
  (['m', 'a', 'k'], ['m', 'a', 'k', 's', 'i']),
  (['m', 'a', 'k', 'c'], ['m', 'a', 'k', 'c', 'u']),
  (['m', 'a', 'k', 'f'], ['m', 'a', 'k', 'f', 'a']),
  (['m', 'a', 'k', 's'], ['m', 'a', 'k', 's', 'i']),
  (['m', 'a', 'l'], ['m', 'a', 'b', 'l', 'a']),
  (['m', 'a', 'l', 's'], ['m', 'a', 'l', 's', 'i']),
  (['m', 'a', 'm'], ['m', 'a', 'm', 't', 'a']),
  (['m', 'a', 'm', 't'], ['m', 'a', 'm', 't', 'a']),
  (['m', 'a', 'n'], ['m', 'a', 'n', 'k', 'u']),
  (['m', 'a', 'n', 'c'], ['m', 'a', 'n', 'c', 'i']),
  (['m', 'a', 'n', 'f'], ['m', 'a', 'n', 'f', 'o']),
  (['m', 'a', 'n', 'k'], ['m', 'a', 'n', 'k', 'u']),
  (['m', 'a', 'n', 'r'], ['m', 'a', 'n', 'r', 'i']),
  (['m', 'a', 'n', 's'], ['m', 'a', 'n', 's', 'a']),
  (['m', 'a', 'n', 't'], ['m', 'a', 'n', 't', 'i']),
  (['m', 'a', 'p'], ['m', 'a', 'p', 'k', 'u']),
  (['m', 'a', 'p', 'k'], ['m', 'a', 'p', 'k', 'u']),
  (['m', 'a', 'p', 'n'], ['m', 'a', 'p', 'n', 'i']),
  (['m', 'a', 'p', 't'], ['m', 'a', 'p', 't', 'i']),
  (['m', 'a', 'r'], ['m', 'a', 'n', 'r', 'i']),
  (['m', 'a', 'r', 'b'], ['m', 'a', 'r', 'b', 'i']),
  (['m', 'a', 'r', 'c'], ['m', 'a', 'r', 'c', 'e']),
  (['m', 'a', 'r', 'd'], ['m', 'a', 'r', 'd', 'e']),
  (['m', 'a', 'r', 'g'], ['m', 'a', 'r', 'g', 'u']),
  (['m', 'a', 'r', 'j'], ['m', 'a', 'r', 'j', 'i']),
  (['m', 'a', 'r', 'n'], ['m', 'a', 'r', 'n', 'a']),
  (['m', 'a', 'r', 'x'], ['m', 'a', 'r', 'x', 'a']),
  (['m', 'a', 's'], ['m', 'a', 'l', 's', 'i']),
  (['m', 'a', 's', 'n'], ['m', 'a', 's', 'n', 'o']),
  (['m', 'a', 's', 't'], ['m', 'a', 's', 't', 'i']),
  (['m', 'a', 't'], ['m', 'a', 'p', 't', 'i']),
  (['m', 'a', 't', 'c'], ['m', 'a', 't', 'c', 'i']),
  (['m', 'a', 't', 'l'], ['m', 'a', 't', 'l', 'i']),
  (['m', 'a', 't', 'n'], ['m', 'a', 't', 'n', 'e']),
  (['m', 'a', 't', 'r'], ['m', 'a', 't', 'r', 'a']),
  (['m', 'a', 'u'], ['z', 'm', 'a', 'd', 'u']),
  (['m', 'a', 'v'], ['m', 'a', 'v', 'j', 'i']),
  (['m', 'a', 'v', 'j'], ['m', 'a', 'v', 'j', 'i']),
  (['m', 'a', 'x'], ['m', 'a', 'r', 'x', 'a']),
  (['m', 'a', 'x', 'r'], ['m', 'a', 'x', 'r', 'i']),
  (['m', 'e', '\'', 'a'], ['m', 'l', 'e', 'c', 'a']),
  (['m', 'e', '\'', 'e'], ['c', 'm', 'e', 'n', 'e']),
  (['m', 'e', '\'', 'i'], ['m', 'e', 'n', 's', 'i']),
  (['m', 'e', '\'', 'o'], ['m', 'e', 'k', 's', 'o']),
  (['m', 'e', '\'', 'u'], ['m', 'e', 'n', 't', 'u']),
  (['m', 'e', 'b'], ['m', 'e', 'b', 'r', 'i']),
  (['m', 'e', 'b', 'r'], ['m', 'e', 'b', 'r', 'i']),
  (['m', 'e', 'c'], ['m', 'l', 'e', 'c', 'a']),
  (['m', 'e', 'g'], ['m', 'e', 'g', 'd', 'o']),
  (['m', 'e', 'g', 'd'], ['m', 'e', 'g', 'd', 'o']),
  (['m', 'e', 'i'], ['m', 'e', 'i']),
  (['m', 'e', 'j'], ['m', 'e', 'l', 'j', 'o']),
  (['m', 'e', 'k'], ['m', 'e', 'k', 's', 'o']),
  (['m', 'e', 'k', 's'], ['m', 'e', 'k', 's', 'o']),
  (['m', 'e', 'l'], ['m', 'e', 'l', 'b', 'i']),
  (['m', 'e', 'l', 'b'], ['m', 'e', 'l', 'b', 'i']),
  (['m', 'e', 'l', 'j'], ['m', 'e', 'l', 'j', 'o']),
  (['m', 'e', 'm'], ['m', 'e', 'i']),
  (['m', 'e', 'n'], ['m', 'e', 'n', 'l', 'i']),
  (['m', 'e', 'n', 'l'], ['m', 'e', 'n', 'l', 'i']),
  (['m', 'e', 'n', 's'], ['m', 'e', 'n', 's', 'i']),
  (['m', 'e', 'n', 't'], ['m', 'e', 'n', 't', 'u']),
  (['m', 'e', 'r'], ['m', 'e', 'r', 'k', 'o']),
  (['m', 'e', 'r', 'k'], ['m', 'e', 'r', 'k', 'o']),
  (['m', 'e', 'r', 'l'], ['m', 'e', 'r', 'l', 'i']),
  (['m', 'e', 's'], ['m', 'e', 'n', 's', 'i']),
  (['m', 'e', 't'], ['m', 'e', 'n', 't', 'u']),
  (['m', 'e', 'x'], ['m', 'e', 'x', 'n', 'o']),
  (['m', 'e', 'x', 'n'], ['m', 'e', 'x', 'n', 'o']),
  (['m', 'i', '\'', 'a'], ['c', 'm', 'i', 'l', 'a']),
  (['m', 'i', '\'', 'e'], ['m', 'i', 'n', 'd', 'e']),
  (['m', 'i', '\'', 'i'], ['m', 'i', 'n', 'j', 'i'])]

/-- `canonluj.inc` as made by `canonluj.pl:8-27` from `reduced_gismu`: rafsi and word, sorted by rafsi, entries 1500-1599. -/
def r2g15 : List (Word × Word) := [
  (['m', 'i', '\'', 'o'], ['m', 'i', 's', 'n', 'o']),
  (['m', 'i', '\'', 'u'], ['m', 'i', 'n', 't', 'u']),
  (['m', 'i', 'b'], ['m', 'i']),
  (['m', 'i', 'c'], ['m', 'i', 'k', 'c', 'e']),
  (['m', 'i', 'd'], ['m', 'i', 'n', 'd', 'e']),
  (['m', 'i', 'd', 'j'], ['m', 'i', 'd', 'j', 'u']),
  (['m', 'i', 'f'], ['m', 'i', 'f', 'r', 'a']),
  (['m', 'i', 'f', 'r'], ['m', 'i', 'f', 'r', 'a']),
  (['m', 'i', 'j'], ['m', 'i', 'd', 'j', 'u']),
  (['m', 'i', 'k'], ['m', 'i', 'k', 'r', 'i']),
  (['m', 'i', 'k', 'c'], ['m', 'i', 'k', 'c', 'e']),
  (['m', 'i', 'k', 'r'], ['m', 'i', 'k', 'r', 'i']),
  (['m', 'i', 'l'], ['m', 'i', 'l', 't', 'i']),
  (['m', 'i', 'l', 't'], ['m', 'i', 'l', 't', 'i']),
  (['m', 'i', 'l', 'x'], ['m', 'i', 'l', 'x', 'e']),
  (['m', 'i', 'm'], ['c', 'm', 'i', 'm', 'a']),
  (['m', 'i', 'n'], ['j', 'm', 'i', 'n', 'a']),
  (['m', 'i', 'n', 'd'], ['m', 'i', 'n', 'd', 'e']),
  (['m', 'i', 'n', 'j'], ['m', 'i', 'n', 'j', 'i']),
  (['m', 'i', 'n', 'l'], ['m', 'i', 'n', 'l', 'i']),
  (['m', 'i', 'n', 'r'], ['m', 'i', 'n', 'r', 'a']),
  (['m', 'i', 'n', 't'], ['m', 'i', 'n', 't', 'u']),
  (['m', 'i', 'p'], ['m', 'i', 'p', 'r', 'i']),
  (['m', 'i', 'p', 'r'], ['m', 'i', 'p', 'r', 'i']),
  (['m', 'i', 'r'], ['m', 'i', 'n', 'r', 'a']),
  (['m', 'i', 'r', 'l'], ['m', 'i', 'r', 'l', 'i']),
  (['m', 'i', 's'], ['m', 'i', 's', 'n', 'o']),
  (['m', 'i', 's', 'n'], ['m', 'i', 's', 'n', 'o']),
  (['m', 'i', 's', 'r'], ['m', 'i', 's', 'r', 'o']),
  (['m', 'i', 't'], ['m', 'i', 'n', 't', 'u']),
  (['m', 'i', 't', 'r'], ['m', 'i', 't', 'r', 'e']),
  (['m', 'i', 'v'], ['j', 'm', 'i', 'v', 'e']),
  (['m', 'i', 'x'], ['m', 'i', 'x', 'r', 'e']),
  (['m', 'i', 'x', 'r'], ['m', 'i', 'x', 'r', 'e']),
  (['m', 'l', 'a'], ['m', 'l', 'a', 'n', 'a']),
  (['m', 'l', 'a', 'n'], ['m', 'l', 'a', 'n', 'a']),
  (['m', 'l', 'a', 't'], ['m', 'l', 'a', 't', 'u']),
  (['m', 'l', 'e'], ['m', 'e', 'l', 'b', 'i']),
  (['m', 'l', 'e', 'c'], ['m', 'l', 'e', 'c', 'a']),
  (['m', 'l', 'e', 'd'], ['m', 'l', 'e', 'd', 'i']),
  (['m', 'l', 'i'], ['m', 'i', 'l', 'x', 'e']),
  (['m', 'l', 'o'], ['m', 'o', 'l', 'k', 'i']),
  (['m', 'l', 'u'], ['s', 'i', 'm', 'l', 'u']),
  (['m', 'l', 'u', 'n'], ['m', 'l', 'u', 'n', 'i']),
  (['m', 'o', '\'', 'a'], ['m', 'o', 'r', 'n', 'a']),
  (['m', 'o', '\'', 'i'], ['m', 'o', 'r', 'j', 'i']),
  (['m', 'o', '\'', 'o'], ['m', 'o', 'l', 'r', 'o']),
  (['m', 'o', '\'', 'u'], ['m', 'o', 'k', 'l', 'u']),
  (['m', 'o', 'b'], ['m', 'o', '\'', 'a']),
  (['m', 'o', 'c'], ['m', 'o', 'k', 'c', 'a']),
  (['m', 'o', 'i'], ['m', 'o', 'i']),
  (['m', 'o', 'j'], ['m', 'o', 'r', 'j', 'i']),
  (['m', 'o', 'k', 'c'], ['m', 'o', 'k', 'c', 'a']),
  (['m', 'o', 'k', 'l'], ['m', 'o', 'k', 'l', 'u']),
  (['m', 'o', 'l'], ['m', 'o', 'k', 'l', 'u']),
  (['m', 'o', 'l', 'k'], ['m', 'o', 'l', 'k', 'i']),
  (['m', 'o', 'l', 'r'], ['m', 'o', 'l', 'r', 'o']),
  (['m', 'o', 'm'], ['m', 'o', 'i']),
  (['m', 'o', 'n'], ['m', 'o', 'r', 'n', 'a']),
  (['m', 'o', 'r'], ['m', 'o', 'r', 'k', 'o']),
  (['m', 'o', 'r', 'j'], ['m', 'o', 'r', 'j', 'i']),
  (['m', 'o', 'r', 'k'], ['m', 'o', 'r', 'k', 'o']),
  (['m', 'o', 'r', 'n'], ['m', 'o', 'r', 'n', 'a']),
  (['m', 'o', 'r', 's'], ['m', 'o', 'r', 's', 'i']),
  (['m', 'o', 's'], ['m', 'o', 's', 'r', 'a']),
  (['m', 'o', 's', 'r'], ['m', 'o', 's', 'r', 'a']),
  (['m', 'o', 'v'], ['m', 'o', '\'', 'i']),
  (['m', 'r', 'a'], ['m', 'a', 'r', 'b', 'i']),
  (['m', 'r', 'a', 'j'], ['m', 'r', 'a', 'j', 'i']),
  (['m', 'r', 'e'], ['m', 'e', 'r', 'l', 'i']),
  (['m', 'r', 'i'], ['m', 'r', 'i', 'l', 'u']),
  (['m', 'r', 'i', 'l'], ['m', 'r', 'i', 'l', 'u']),
  (['m', 'r', 'o'], ['m', 'o', 'r', 's', 'i']),
  (['m', 'r', 'u'], ['m', 'r', 'u', 'l', 'i']),
  (['m', 'r', 'u', 'l'], ['m', 'r', 'u', 'l', 'i']),
  (['m', 'u', '\'', 'a'], ['m', 'u', 'r', 't', 'a']),
  (['m', 'u', '\'', 'e'], ['m', 'u', 'n', 'j', 'e']),
  (['m', 'u', '\'', 'i'], ['m', 'u', 'k', 't', 'i']),
  (['m', 'u', '\'', 'o'], ['m', 'u', 'l', 'n', 'o']),
  (['m', 'u', '\'', 'u'], ['m', 'u', 'v', 'd', 'u']),
  (['m', 'u', 'c'], ['s', 'm', 'u', 'c', 'i']),
  (['m', 'u', 'c', 't'], ['m', 'u', 'c', 't', 'i']),
  (['m', 'u', 'd'], ['m', 'u', 'd', 'r', 'i']),
  (['m', 'u', 'd', 'r'], ['m', 'u', 'd', 'r', 'i']),
  (['m', 'u', 'f'], ['m', 'u', '\'', 'e']),
  (['m', 'u', 'j'], ['m', 'u', 'n', 'j', 'e']),
  (['m', 'u', 'k'], ['m', 'u', 'k', 't', 'i']),
  (['m', 'u', 'k', 't'], ['m', 'u', 'k', 't', 'i']),
  (['m', 'u', 'l'], ['m', 'u', 'l', 'n', 'o']),
  (['m', 'u', 'l', 'n'], ['m', 'u', 'l', 'n', 'o']),
  (['m', 'u', 'm'], ['m', 'u']),
  (['m', 'u', 'n'], ['s', 'm', 'u', 'n', 'i']),
  (['m', 'u', 'n', 'j'], ['m', 'u', 'n', 'j', 'e']),
  (['m', 'u', 'p'], ['m', 'u', 'p', 'l', 'i']),
  (['m', 'u', 'p', 'l'], ['m', 'u', 'p', 'l', 'i']),
  (['m', 'u', 'r'], ['m', 'u', 'r', 't', 'a']),
  (['m', 'u', 'r', 's'], ['m', 'u', 'r', 's', 'e']),
  (['m', 'u', 'r', 't'], ['m', 'u', 'r', 't', 'a']),
  (['m', 'u', 's'], ['m', 'u', 's', 'l', 'o']),
  (['m', 'u', 's', 'l'], ['m', 'u', 's', 'l', 'o'])]

/-- `canonluj.inc` as made by `canonluj.pl:8-27` from `reduced_gismu`: rafsi and word, sorted by rafsi, entries 1600-1699. -/
def r2g16 : List (Word × Word) := [
  (['m', 'u', 't'], ['m', 'u', 'c', 't', 'i']),
  (['m', 'u', 't', 'c'], ['m', 'u', 't', 'c', 'e']),
  (['m', 'u', 'v'], ['m', 'u', 'v', 'd', 'u']),
  (['m', 'u', 'v', 'd'], ['m', 'u', 'v', 'd', 'u']),
  (['m', 'u', 'z'], ['m', 'u', 'z', 'g', 'a']),
  (['m', 'u', 'z', 'g'], ['m', 'u', 'z', 'g', 'a']),
  (['n', 'a', '\'', 'a'], ['n', 'a', 'n', 'c', 'a']),
  (['n', 'a', '\'', 'e'], ['n', 'a', 't', 'f', 'e']),
  (['n', 'a', '\'', 'i'], ['n', 'a', 'l', 'c', 'i']),
  (['n', 'a', '\'', 'o'], ['c', 'n', 'a', 'n', 'o']),
  (['n', 'a', '\'', 'u'], ['n', 'a', 'm', 'c', 'u']),
  (['n', 'a', 'b'], ['n', 'a', 'n', 'b', 'a']),
  (['n', 'a', 'b', 'm'], ['n', 'a', 'b', 'm', 'i']),
  (['n', 'a', 'c'], ['n', 'a', 'm', 'c', 'u']),
  (['n', 'a', 'd'], ['n', 'a', 'n', 'd', 'u']),
  (['n', 'a', 'f'], ['n', 'a', 't', 'f', 'e']),
  (['n', 'a', 'g'], ['n', 'a', 'r', 'g', 'e']),
  (['n', 'a', 'i'], ['n', 'a', 't', 'm', 'i']),
  (['n', 'a', 'j'], ['n', 'a', 'r', 'j', 'u']),
  (['n', 'a', 'k'], ['n', 'a', 'k', 'n', 'i']),
  (['n', 'a', 'k', 'n'], ['n', 'a', 'k', 'n', 'i']),
  (['n', 'a', 'l'], ['n', 'a', '\'', 'e']),
  (['n', 'a', 'l', 'c'], ['n', 'a', 'l', 'c', 'i']),
  (['n', 'a', 'm'], ['n', 'a', 'b', 'm', 'i']),
  (['n', 'a', 'm', 'c'], ['n', 'a', 'm', 'c', 'u']),
  (['n', 'a', 'n'], ['s', 'n', 'a', 'n', 'u']),
  (['n', 'a', 'n', 'b'], ['n', 'a', 'n', 'b', 'a']),
  (['n', 'a', 'n', 'c'], ['n', 'a', 'n', 'c', 'a']),
  (['n', 'a', 'n', 'd'], ['n', 'a', 'n', 'd', 'u']),
  (['n', 'a', 'n', 'l'], ['n', 'a', 'n', 'l', 'a']),
  (['n', 'a', 'n', 'm'], ['n', 'a', 'n', 'm', 'u']),
  (['n', 'a', 'n', 'v'], ['n', 'a', 'n', 'v', 'i']),
  (['n', 'a', 'r'], ['n', 'a']),
  (['n', 'a', 'r', 'g'], ['n', 'a', 'r', 'g', 'e']),
  (['n', 'a', 'r', 'j'], ['n', 'a', 'r', 'j', 'u']),
  (['n', 'a', 't'], ['n', 'a', 't', 'm', 'i']),
  (['n', 'a', 't', 'f'], ['n', 'a', 't', 'f', 'e']),
  (['n', 'a', 't', 'm'], ['n', 'a', 't', 'm', 'i']),
  (['n', 'a', 'u'], ['n', 'a', 'n', 'm', 'u']),
  (['n', 'a', 'v'], ['n', 'a', 'n', 'v', 'i']),
  (['n', 'a', 'v', 'n'], ['n', 'a', 'v', 'n', 'i']),
  (['n', 'a', 'x'], ['n', 'a', 'x', 'l', 'e']),
  (['n', 'a', 'x', 'l'], ['n', 'a', 'x', 'l', 'e']),
  (['n', 'a', 'z'], ['n', 'a', 'z', 'b', 'i']),
  (['n', 'a', 'z', 'b'], ['n', 'a', 'z', 'b', 'i']),
  (['n', 'e', '\'', 'i'], ['n', 'e', 'n', 'r', 'i']),
  (['n', 'e', '\'', 'o'], ['c', 'n', 'e', 'b', 'o']),
  (['n', 'e', '\'', 'u'], ['c', 'n', 'e', 'm', 'u']),
  (['n', 'e', 'b'], ['c', 'n', 'e', 'b', 'o']),
  (['n', 'e', 'i'], ['n', 'e', 'l', 'c', 'i']),
  (['n', 'e', 'j', 'n'], ['n', 'e', 'j', 'n', 'i']),
  (['n', 'e', 'l'], ['n', 'e', 'l', 'c', 'i']),
  (['n', 'e', 'l', 'c'], ['n', 'e', 'l', 'c', 'i']),
  (['n', 'e', 'm'], ['c', 'n', 'e', 'm', 'u']),
  (['n', 'e', 'n'], ['n', 'e', 'j', 'n', 'i']),
  (['n', 'e', 'n', 'r'], ['n', 'e', 'n', 'r', 'i']),
  (['n', 'e', 'r'], ['n', 'e', 'n', 'r', 'i']),
  (['n', 'i', '\'', 'a'], ['c', 'n', 'i', 't', 'a']),
  (['n', 'i', '\'', 'e'], ['n', 'i', 'l', 'c', 'e']),
  (['n', 'i', '\'', 'i'], ['n', 'i', 'b', 'l', 'i']),
  (['n', 'i', '\'', 'o'], ['c', 'n', 'i', 'n', 'o']),
  (['n', 'i', '\'', 'u'], ['n', 'i', 'n', 'm', 'u']),
  (['n', 'i', 'b'], ['n', 'i', 'b', 'l', 'i']),
  (['n', 'i', 'b', 'l'], ['n', 'i', 'b', 'l', 'i']),
  (['n', 'i', 'c'], ['c', 'n', 'i', 'c', 'i']),
  (['n', 'i', 'c', 't'], ['n', 'i', 'c', 't', 'e']),
  (['n', 'i', 'd'], ['s', 'n', 'i', 'd', 'u']),
  (['n', 'i', 'k'], ['n', 'i', 'k', 'l', 'e']),
  (['n', 'i', 'k', 'l'], ['n', 'i', 'k', 'l', 'e']),
  (['n', 'i', 'l'], ['n', 'i']),
  (['n', 'i', 'l', 'c'], ['n', 'i', 'l', 'c', 'e']),
  (['n', 'i', 'm'], ['n', 'i', 'n', 'm', 'u']),
  (['n', 'i', 'm', 'r'], ['n', 'i', 'm', 'r', 'e']),
  (['n', 'i', 'n'], ['c', 'n', 'i', 'n', 'o']),
  (['n', 'i', 'n', 'm'], ['n', 'i', 'n', 'm', 'u']),
  (['n', 'i', 'p'], ['s', 'n', 'i', 'p', 'a']),
  (['n', 'i', 'r'], ['n', 'i', 'r', 'n', 'a']),
  (['n', 'i', 'r', 'n'], ['n', 'i', 'r', 'n', 'a']),
  (['n', 'i', 's'], ['c', 'n', 'i', 's', 'a']),
  (['n', 'i', 't'], ['c', 'n', 'i', 't', 'a']),
  (['n', 'i', 't', 'c'], ['n', 'i', 't', 'c', 'u']),
  (['n', 'i', 'v'], ['n', 'i', 'v', 'j', 'i']),
  (['n', 'i', 'v', 'j'], ['n', 'i', 'v', 'j', 'i']),
  (['n', 'i', 'x'], ['n', 'i', 'x', 'l', 'i']),
  (['n', 'i', 'x', 'l'], ['n', 'i', 'x', 'l', 'i']),
  (['n', 'o', '\'', 'e'], ['n', 'o', '\'', 'e']),
  (['n', 'o', '\'', 'i'], ['n', 'o', 'b', 'l', 'i']),
  (['n', 'o', 'b', 'l'], ['n', 'o', 'b', 'l', 'i']),
  (['n', 'o', 'i'], ['n', 'o', 't', 'c', 'i']),
  (['n', 'o', 'l'], ['n', 'o', 'b', 'l', 'i']),
  (['n', 'o', 'n'], ['n', 'o']),
  (['n', 'o', 'r'], ['n', 'o', '\'', 'e']),
  (['n', 'o', 't'], ['n', 'o', 't', 'c', 'i']),
  (['n', 'o', 't', 'c'], ['n', 'o', 't', 'c', 'i']),
  (['n', 'u', '\'', 'a'], ['s', 'n', 'u', 'r', 'a']),
  (['n', 'u', '\'', 'e'], ['n', 'u', 'p', 'r', 'e']),
  (['n', 'u', '\'', 'i'], ['n', 'u', 't', 'l', 'i']),
  (['n', 'u', '\'', 'o'], ['n', 'u', '\'', 'o']),
  (['n', 'u', 'j'], ['s', 'n', 'u', 'j', 'i']),
  (['n', 'u', 'k'], ['n', 'u', 'k', 'n', 'i'])]

/-- `canonluj.inc` as made by `canonluj.pl:8-27` from `reduced_gismu`: rafsi and word, sorted by rafsi, entries 1700-1799. -/
def r2g17 : List (Word × Word) := [
  (['n', 'u', 'k', 'n'], ['n', 'u', 'k', 'n', 'i']),
  (['n', 'u', 'l'], ['n', 'u', 't', 'l', 'i']),
  (['n', 'u', 'm'], ['n', 'u', 'r', 'm', 'a']),
  (['n', 'u', 'n'], ['n', 'u']),
  (['n', 'u', 'p'], ['n', 'u', 'p', 'r', 'e']),
  (['n', 'u', 'p', 'r'], ['n', 'u', 'p', 'r', 'e']),
  (['n', 'u', 'r'], ['s', 'n', 'u', 'r', 'a']),
  (['n', 'u', 'r', 'm'], ['n', 'u', 'r', 'm', 'a']),
  (['n', 'u', 't'], ['s', 'n', 'u', 't', 'i']),
  (['n', 'u', 't', 'l'], ['n', 'u', 't', 'l', 'i']),
  (['n', 'u', 'z'], ['n', 'u', 'z', 'b', 'a']),
  (['n', 'u', 'z', 'b'], ['n', 'u', 'z', 'b', 'a']),
  (['p', 'a', '\'', 'a'], ['p', 'a', 'c', 'n', 'a']),
  (['p', 'a', '\'', 'e'], ['p', 'r', 'a', 'n', 'e']),
  (['p', 'a', '\'', 'i'], ['p', 'r', 'a', 'm', 'i']),
  (['p', 'a', '\'', 'o'], ['p', 'a', 'n', 'l', 'o']),
  (['p', 'a', '\'', 'u'], ['p', 'a', 't', 'f', 'u']),
  (['p', 'a', 'b'], ['p', 'a', 'r', 'b', 'i']),
  (['p', 'a', 'c'], ['p', 'a', 'l', 'c', 'i']),
  (['p', 'a', 'c', 'n'], ['p', 'a', 'c', 'n', 'a']),
  (['p', 'a', 'd'], ['p', 'a', 'n', 'd', 'i']),
  (['p', 'a', 'f'], ['p', 'a', 't', 'f', 'u']),
  (['p', 'a', 'g'], ['p', 'a', 'g', 'b', 'u']),
  (['p', 'a', 'g', 'b'], ['p', 'a', 'g', 'b', 'u']),
  (['p', 'a', 'g', 'r'], ['p', 'a', 'g', 'r', 'e']),
  (['p', 'a', 'i'], ['p', 'a', 'j', 'n', 'i']),
  (['p', 'a', 'j'], ['s', 'p', 'a', 'j', 'i']),
  (['p', 'a', 'j', 'n'], ['p', 'a', 'j', 'n', 'i']),
  (['p', 'a', 'k'], ['p', 'a', 'l', 'k', 'u']),
  (['p', 'a', 'l'], ['p', 'r', 'a', 'l', 'i']),
  (['p', 'a', 'l', 'c'], ['p', 'a', 'l', 'c', 'i']),
  (['p', 'a', 'l', 'k'], ['p', 'a', 'l', 'k', 'u']),
  (['p', 'a', 'l', 'n'], ['p', 'a', 'l', 'n', 'e']),
  (['p', 'a', 'l', 't'], ['p', 'a', 'l', 't', 'a']),
  (['p', 'a', 'm'], ['p', 'r', 'a', 'm', 'i']),
  (['p', 'a', 'm', 'b'], ['p', 'a', 'm', 'b', 'e']),
  (['p', 'a', 'n'], ['p', 'a', 'n', 'c', 'i']),
  (['p', 'a', 'n', 'c'], ['p', 'a', 'n', 'c', 'i']),
  (['p', 'a', 'n', 'd'], ['p', 'a', 'n', 'd', 'i']),
  (['p', 'a', 'n', 'j'], ['p', 'a', 'n', 'j', 'e']),
  (['p', 'a', 'n', 'k'], ['p', 'a', 'n', 'k', 'a']),
  (['p', 'a', 'n', 'l'], ['p', 'a', 'n', 'l', 'o']),
  (['p', 'a', 'n', 'p'], ['p', 'a', 'n', 'p', 'i']),
  (['p', 'a', 'n', 'r'], ['p', 'a', 'n', 'r', 'a']),
  (['p', 'a', 'n', 't'], ['p', 'a', 'n', 't', 'e']),
  (['p', 'a', 'n', 'z'], ['p', 'a', 'n', 'z', 'i']),
  (['p', 'a', 'p'], ['p', 'a', 'n', 'p', 'i']),
  (['p', 'a', 'p', 'r'], ['p', 'a', 'p', 'r', 'i']),
  (['p', 'a', 'r'], ['c', 'p', 'a', 'r', 'e']),
  (['p', 'a', 'r', 'b'], ['p', 'a', 'r', 'b', 'i']),
  (['p', 'a', 's'], ['p', 'a', 's', 't', 'u']),
  (['p', 'a', 's', 't'], ['p', 'a', 's', 't', 'u']),
  (['p', 'a', 't'], ['p', 'a', 'n', 't', 'e']),
  (['p', 'a', 't', 'f'], ['p', 'a', 't', 'f', 'u']),
  (['p', 'a', 't', 'l'], ['p', 'a', 't', 'l', 'u']),
  (['p', 'a', 't', 'x'], ['p', 'a', 't', 'x', 'u']),
  (['p', 'a', 'u'], ['p', 'a', 'g', 'b', 'u']),
  (['p', 'a', 'v'], ['p', 'a']),
  (['p', 'a', 'x'], ['p', 'a', 't', 'x', 'u']),
  (['p', 'a', 'z'], ['p', 'a', 'n', 'z', 'i']),
  (['p', 'e', '\'', 'a'], ['p', 'r', 'e', 'j', 'a']),
  (['p', 'e', '\'', 'i'], ['p', 'e', 'n', 'm', 'i']),
  (['p', 'e', '\'', 'o'], ['p', 'e', 'n', 'd', 'o']),
  (['p', 'e', '\'', 'u'], ['p', 'e', 'n', 'c', 'u']),
  (['p', 'e', 'b'], ['p', 'e', 'n', 'b', 'i']),
  (['p', 'e', 'c'], ['p', 'e', 'n', 'c', 'u']),
  (['p', 'e', 'd'], ['p', 'e', 'n', 'd', 'o']),
  (['p', 'e', 'i'], ['p', 'e', 'n', 's', 'i']),
  (['p', 'e', 'j'], ['p', 'r', 'e', 'j', 'a']),
  (['p', 'e', 'l'], ['p', 'e', 'l', 'x', 'u']),
  (['p', 'e', 'l', 'j'], ['p', 'e', 'l', 'j', 'i']),
  (['p', 'e', 'l', 'x'], ['p', 'e', 'l', 'x', 'u']),
  (['p', 'e', 'm'], ['p', 'e', 'm', 'c', 'i']),
  (['p', 'e', 'm', 'c'], ['p', 'e', 'm', 'c', 'i']),
  (['p', 'e', 'n'], ['p', 'e', 'n', 'm', 'i']),
  (['p', 'e', 'n', 'b'], ['p', 'e', 'n', 'b', 'i']),
  (['p', 'e', 'n', 'c'], ['p', 'e', 'n', 'c', 'u']),
  (['p', 'e', 'n', 'd'], ['p', 'e', 'n', 'd', 'o']),
  (['p', 'e', 'n', 'm'], ['p', 'e', 'n', 'm', 'i']),
  (['p', 'e', 'n', 's'], ['p', 'e', 'n', 's', 'i']),
  (['p', 'e', 'r'], ['p', 'e', 'r', 'l', 'i']),
  (['p', 'e', 'r', 'l'], ['p', 'e', 'r', 'l', 'i']),
  (['p', 'e', 's'], ['p', 'e', 'n', 's', 'i']),
  (['p', 'e', 's', 'x'], ['p', 'e', 's', 'x', 'u']),
  (['p', 'e', 't'], ['p', 'e', 't', 's', 'o']),
  (['p', 'e', 't', 's'], ['p', 'e', 't', 's', 'o']),
  (['p', 'e', 'v'], ['p', 'e', '\'', 'a']),
  (['p', 'e', 'x'], ['p', 'e', 's', 'x', 'u']),
  (['p', 'e', 'z'], ['p', 'e', 'z', 'l', 'i']),
  (['p', 'e', 'z', 'l'], ['p', 'e', 'z', 'l', 'i']),
  (['p', 'i', '\'', 'a'], ['p', 'i', 'l', 'k', 'a']),
  (['p', 'i', '\'', 'e'], ['p', 'l', 'i', 'p', 'e']),
  (['p', 'i', '\'', 'i'], ['p', 'i', 'l', 'j', 'i']),
  (['p', 'i', '\'', 'o'], ['p', 'i', 'p', 'n', 'o']),
  (['p', 'i', '\'', 'u'], ['p', 'i', 'm', 'l', 'u']),
  (['p', 'i', 'b'], ['p', 'l', 'i', 'b', 'u']),
  (['p', 'i', 'c'], ['p', 'i', 'c', 't', 'i']),
  (['p', 'i', 'c', 't'], ['p', 'i', 'c', 't', 'i']),
  (['p', 'i', 'd'], ['p', 'i', 'n', 'd', 'i']),
  (['p', 'i', 'f'], ['p', 'i', 'n', 'f', 'u'])]

/-- `canonluj.inc` as made by `canonluj.pl:8-27` from `reduced_gismu`: rafsi and word, sorted by rafsi, entries 1800-1899. -/
def r2g18 : List (Word × Word) := [
  (['p', 'i', 'j'], ['p', 'r', 'i', 'j', 'e']),
  (['p', 'i', 'j', 'n'], ['p', 'i', 'j', 'n', 'e']),
  (['p', 'i', 'k'], ['p', 'i', 'n', 'k', 'a']),
  (['p', 'i', 'k', 'c'], ['p', 'i', 'k', 'c', 'i']),
  (['p', 'i', 'k', 't'], ['p', 'i', 'k', 't', 'a']),
  (['p', 'i', 'l'], ['p', 'i', 'l', 'k', 'a']),
  (['p', 'i', 'l', 'j'], ['p', 'i', 'l', 'j', 'i']),
  (['p', 'i', 'l', 'k'], ['p', 'i', 'l', 'k', 'a']),
  (['p', 'i', 'l', 'n'], ['p', 'i', 'l', 'n', 'o']),
  (['p', 'i', 'm'], ['p', 'i', 'm', 'l', 'u']),
  (['p', 'i', 'm', 'l'], ['p', 'i', 'm', 'l', 'u']),
  (['p', 'i', 'n'], ['p', 'i', 'n', 't', 'a']),
  (['p', 'i', 'n', 'c'], ['p', 'i', 'n', 'c', 'a']),
  (['p', 'i', 'n', 'd'], ['p', 'i', 'n', 'd', 'i']),
  (['p', 'i', 'n', 'f'], ['p', 'i', 'n', 'f', 'u']),
  (['p', 'i', 'n', 'j'], ['p', 'i', 'n', 'j', 'i']),
  (['p', 'i', 'n', 'k'], ['p', 'i', 'n', 'k', 'a']),
  (['p', 'i', 'n', 's'], ['p', 'i', 'n', 's', 'i']),
  (['p', 'i', 'n', 't'], ['p', 'i', 'n', 't', 'a']),
  (['p', 'i', 'n', 'x'], ['p', 'i', 'n', 'x', 'e']),
  (['p', 'i', 'p'], ['p', 'l', 'i', 'p', 'e']),
  (['p', 'i', 'p', 'n'], ['p', 'i', 'p', 'n', 'o']),
  (['p', 'i', 'r'], ['p', 'i', 'x', 'r', 'a']),
  (['p', 'i', 's'], ['p', 'i', 'n', 's', 'i']),
  (['p', 'i', 't'], ['p', 'l', 'i', 't', 'a']),
  (['p', 'i', 'v'], ['p', 'i', '\'', 'u']),
  (['p', 'i', 'x'], ['p', 'i', 'n', 'x', 'e']),
  (['p', 'i', 'x', 'r'], ['p', 'i', 'x', 'r', 'a']),
  (['p', 'i', 'z'], ['p', 'i']),
  (['p', 'l', 'a'], ['p', 'l', 'a', 't', 'u']),
  (['p', 'l', 'a', 'n'], ['p', 'l', 'a', 'n', 'a']),
  (['p', 'l', 'a', 't'], ['p', 'l', 'a', 't', 'u']),
  (['p', 'l', 'e'], ['p', 'e', 'l', 'j', 'i']),
  (['p', 'l', 'e', 'j'], ['p', 'l', 'e', 'j', 'i']),
  (['p', 'l', 'i'], ['p', 'i', 'l', 'n', 'o']),
  (['p', 'l', 'i', 'b'], ['p', 'l', 'i', 'b', 'u']),
  (['p', 'l', 'i', 'n'], ['p', 'l', 'i', 'n', 'i']),
  (['p', 'l', 'i', 'p'], ['p', 'l', 'i', 'p', 'e']),
  (['p', 'l', 'i', 's'], ['p', 'l', 'i', 's', 'e']),
  (['p', 'l', 'i', 't'], ['p', 'l', 'i', 't', 'a']),
  (['p', 'l', 'i', 'x'], ['p', 'l', 'i', 'x', 'a']),
  (['p', 'l', 'o'], ['p', 'o', 'l', 'j', 'e']),
  (['p', 'l', 'u'], ['d', 'a', 'p', 'l', 'u']),
  (['p', 'l', 'u', 'j'], ['p', 'l', 'u', 'j', 'a']),
  (['p', 'l', 'u', 'k'], ['p', 'l', 'u', 'k', 'a']),
  (['p', 'l', 'u', 't'], ['p', 'l', 'u', 't', 'a']),
  (['p', 'o', '\'', 'a'], ['s', 'p', 'o', 'j', 'a']),
  (['p', 'o', '\'', 'e'], ['p', 'o', 'n', 's', 'e']),
  (['p', 'o', '\'', 'i'], ['p', 'o', 'r', 'p', 'i']),
  (['p', 'o', '\'', 'o'], ['p', 'o', 'n', 'j', 'o']),
  (['p', 'o', '\'', 'u'], ['s', 'p', 'o', 'f', 'u']),
  (['p', 'o', 'f'], ['s', 'p', 'o', 'f', 'u']),
  (['p', 'o', 'i'], ['p', 'o', 'r', 's', 'i']),
  (['p', 'o', 'j'], ['s', 'p', 'o', 'j', 'a']),
  (['p', 'o', 'l'], ['p', 'o', 'l', 'n', 'o']),
  (['p', 'o', 'l', 'j'], ['p', 'o', 'l', 'j', 'e']),
  (['p', 'o', 'l', 'n'], ['p', 'o', 'l', 'n', 'o']),
  (['p', 'o', 'n'], ['p', 'o', 'n', 'j', 'o']),
  (['p', 'o', 'n', 'j'], ['p', 'o', 'n', 'j', 'o']),
  (['p', 'o', 'n', 's'], ['p', 'o', 'n', 's', 'e']),
  (['p', 'o', 'p'], ['p', 'o', 'r', 'p', 'i']),
  (['p', 'o', 'r'], ['p', 'o', 'r', 's', 'i']),
  (['p', 'o', 'r', 'p'], ['p', 'o', 'r', 'p', 'i']),
  (['p', 'o', 'r', 's'], ['p', 'o', 'r', 's', 'i']),
  (['p', 'o', 'r', 't'], ['p', 'o', 'r', 't', 'o']),
  (['p', 'o', 's'], ['p', 'o', 'n', 's', 'e']),
  (['p', 'o', 't'], ['p', 'o', 'r', 't', 'o']),
  (['p', 'r', 'a'], ['c', 'u', 'p', 'r', 'a']),
  (['p', 'r', 'a', 'l'], ['p', 'r', 'a', 'l', 'i']),
  (['p', 'r', 'a', 'm'], ['p', 'r', 'a', 'm', 'i']),
  (['p', 'r', 'a', 'n'], ['p', 'r', 'a', 'n', 'e']),
  (['p', 'r', 'e'], ['p', 'r', 'e', 'n', 'u']),
  (['p', 'r', 'e', 'j'], ['p', 'r', 'e', 'j', 'a']),
  (['p', 'r', 'e', 'n'], ['p', 'r', 'e', 'n', 'u']),
  (['p', 'r', 'e', 't'], ['p', 'r', 'e', 't', 'i']),
  (['p', 'r', 'i'], ['p', 'r', 'i', 'n', 'a']),
  (['p', 'r', 'i', 'j'], ['p', 'r', 'i', 'j', 'e']),
  (['p', 'r', 'i', 'n'], ['p', 'r', 'i', 'n', 'a']),
  (['p', 'r', 'i', 't'], ['p', 'r', 'i', 't', 'u']),
  (['p', 'r', 'o'], ['f', 'a', 'p', 'r', 'o']),
  (['p', 'r', 'o', 's'], ['p', 'r', 'o', 's', 'a']),
  (['p', 'r', 'u'], ['p', 'u', 'r', 'c', 'i']),
  (['p', 'r', 'u', 'c'], ['p', 'r', 'u', 'c', 'e']),
  (['p', 'r', 'u', 'n'], ['p', 'r', 'u', 'n', 'i']),
  (['p', 'r', 'u', 'x'], ['p', 'r', 'u', 'x', 'i']),
  (['p', 'u', '\'', 'a'], ['p', 'l', 'u', 'k', 'a']),
  (['p', 'u', '\'', 'e'], ['p', 'u', 'l', 'c', 'e']),
  (['p', 'u', '\'', 'i'], ['p', 'u', 'n', 'j', 'i']),
  (['p', 'u', '\'', 'o'], ['p', 'u', 'r', 'm', 'o']),
  (['p', 'u', '\'', 'u'], ['s', 'p', 'u', 't', 'u']),
  (['p', 'u', 'c'], ['p', 'u', 'l', 'c', 'e']),
  (['p', 'u', 'd'], ['p', 'u', 'r', 'd', 'i']),
  (['p', 'u', 'j'], ['p', 'u', 'n', 'j', 'i']),
  (['p', 'u', 'k'], ['p', 'l', 'u', 'k', 'a']),
  (['p', 'u', 'l'], ['p', 'u', 'n', 'l', 'i']),
  (['p', 'u', 'l', 'c'], ['p', 'u', 'l', 'c', 'e']),
  (['p', 'u', 'l', 'j'], ['p', 'u', 'l', 'j', 'i']),
  (['p', 'u', 'l', 'n'], ['p', 'u', 'l', 'n', 'i']),
  (['p', 'u', 'm'], ['p', 'u', 'r', 'm', 'o']),
  (['p', 'u', 'n'], ['p', 'r', 'u', 'n', 'i'])]

/-- `canonluj.inc` as made by `canonluj.pl:8-27` from `reduced_gismu`: rafsi and word, sorted by rafsi, entries 1900-1999. -/
def r2g19 : List (Word × Word) := [
  (['p', 'u', 'n', 'j'], ['p', 'u', 'n', 'j', 'i']),
  (['p', 'u', 'n', 'l'], ['p', 'u', 'n', 'l', 'i']),
  (['p', 'u', 'r'], ['p', 'u', 'r', 'c', 'i']),
  (['p', 'u', 'r', 'c'], ['p', 'u', 'r', 'c', 'i']),
  (['p', 'u', 'r', 'd'], ['p', 'u', 'r', 'd', 'i']),
  (['p', 'u', 'r', 'm'], ['p', 'u', 'r', 'm', 'o']),
  (['p', 'u', 's'], ['p', 'u', '\'', 'i']),
  (['p', 'u', 't'], ['s', 'p', 'u', 't', 'u']),
  (['p', 'u', 'v'], ['p', 'u', '\'', 'u']),
  (['r', 'a', '\'', 'a'], ['s', 'r', 'a', 'n', 'a']),
  (['r', 'a', '\'', 'e'], ['r', 'a', 'l', 't', 'e']),
  (['r', 'a', '\'', 'i'], ['r', 'a', 'n', 'j', 'i']),
  (['r', 'a', '\'', 'o'], ['r', 'a', 'd', 'n', 'o']),
  (['r', 'a', '\'', 'u'], ['r', 'a', 'k', 't', 'u']),
  (['r', 'a', 'b'], ['x', 'r', 'a', 'b', 'o']),
  (['r', 'a', 'c'], ['r', 'a', 'l', 'c', 'i']),
  (['r', 'a', 'c', 'l'], ['r', 'a', 'c', 'l', 'i']),
  (['r', 'a', 'c', 't'], ['r', 'a', 'c', 't', 'u']),
  (['r', 'a', 'd'], ['r', 'a', 'n', 'd', 'a']),
  (['r', 'a', 'd', 'n'], ['r', 'a', 'd', 'n', 'o']),
  (['r', 'a', 'f'], ['r', 'a', 'f', 's', 'i']),
  (['r', 'a', 'f', 's'], ['r', 'a', 'f', 's', 'i']),
  (['r', 'a', 'g'], ['r', 'a', 'n', 'g', 'o']),
  (['r', 'a', 'g', 'v'], ['r', 'a', 'g', 'v', 'e']),
  (['r', 'a', 'i'], ['t', 'r', 'a', 'j', 'i']),
  (['r', 'a', 'j'], ['s', 'r', 'a', 'j', 'i']),
  (['r', 'a', 'k'], ['s', 'r', 'a', 'k', 'u']),
  (['r', 'a', 'k', 's'], ['r', 'a', 'k', 's', 'o']),
  (['r', 'a', 'k', 't'], ['r', 'a', 'k', 't', 'u']),
  (['r', 'a', 'l'], ['r', 'a', 'l', 'j', 'u']),
  (['r', 'a', 'l', 'c'], ['r', 'a', 'l', 'c', 'i']),
  (['r', 'a', 'l', 'j'], ['r', 'a', 'l', 'j', 'u']),
  (['r', 'a', 'l', 't'], ['r', 'a', 'l', 't', 'e']),
  (['r', 'a', 'm'], ['r', 'a', 'n', 'm', 'i']),
  (['r', 'a', 'n'], ['r', 'a', 'n', 't', 'i']),
  (['r', 'a', 'n', 'd'], ['r', 'a', 'n', 'd', 'a']),
  (['r', 'a', 'n', 'g'], ['r', 'a', 'n', 'g', 'o']),
  (['r', 'a', 'n', 'j'], ['r', 'a', 'n', 'j', 'i']),
  (['r', 'a', 'n', 'm'], ['r', 'a', 'n', 'm', 'i']),
  (['r', 'a', 'n', 's'], ['r', 'a', 'n', 's', 'u']),
  (['r', 'a', 'n', 't'], ['r', 'a', 'n', 't', 'i']),
  (['r', 'a', 'n', 'x'], ['r', 'a', 'n', 'x', 'i']),
  (['r', 'a', 'p'], ['r', 'a', 'p', 'l', 'i']),
  (['r', 'a', 'p', 'l'], ['r', 'a', 'p', 'l', 'i']),
  (['r', 'a', 'r'], ['r', 'a', 'r', 'n', 'a']),
  (['r', 'a', 'r', 'n'], ['r', 'a', 'r', 'n', 'a']),
  (['r', 'a', 's'], ['g', 'r', 'a', 's', 'u']),
  (['r', 'a', 't'], ['r', 'a', 't', 'n', 'i']),
  (['r', 'a', 't', 'c'], ['r', 'a', 't', 'c', 'u']),
  (['r', 'a', 't', 'n'], ['r', 'a', 't', 'n', 'i']),
  (['r', 'a', 'u'], ['g', 'r', 'a', 'd', 'u']),
  (['r', 'a', 'v'], ['r', 'a', 'g', 'v', 'e']),
  (['r', 'a', 'x'], ['r', 'a', 'n', 'x', 'i']),
  (['r', 'a', 'z'], ['b', 'r', 'a', 'z', 'o']),
  (['r', 'e', '\'', 'a'], ['r', 'e', 'm', 'n', 'a']),
  (['r', 'e', '\'', 'e'], ['t', 'r', 'e', 'n', 'e']),
  (['r', 'e', '\'', 'i'], ['r', 'e', 'n', 'v', 'i']),
  (['r', 'e', '\'', 'o'], ['r', 'e', 'n', 'r', 'o']),
  (['r', 'e', '\'', 'u'], ['r', 'e', 'c', 't', 'u']),
  (['r', 'e', 'b'], ['r', 'e', 'b', 'l', 'a']),
  (['r', 'e', 'b', 'l'], ['r', 'e', 'b', 'l', 'a']),
  (['r', 'e', 'c'], ['r', 'e', 'c', 't', 'u']),
  (['r', 'e', 'c', 't'], ['r', 'e', 'c', 't', 'u']),
  (['r', 'e', 'd'], ['b', 'r', 'e', 'd', 'i']),
  (['r', 'e', 'f'], ['k', 'r', 'e', 'f', 'u']),
  (['r', 'e', 'i'], ['p', 'r', 'e', 't', 'i']),
  (['r', 'e', 'j'], ['v', 'r', 'e', 'j', 'i']),
  (['r', 'e', 'k'], ['g', 'r', 'e', 'k', 'u']),
  (['r', 'e', 'l'], ['r', 'e']),
  (['r', 'e', 'm'], ['r', 'e', 'm', 'n', 'a']),
  (['r', 'e', 'm', 'n'], ['r', 'e', 'm', 'n', 'a']),
  (['r', 'e', 'n'], ['t', 'r', 'e', 'n', 'e']),
  (['r', 'e', 'n', 'r'], ['r', 'e', 'n', 'r', 'o']),
  (['r', 'e', 'n', 'v'], ['r', 'e', 'n', 'v', 'i']),
  (['r', 'e', 'p'], ['c', 'r', 'e', 'p', 'u']),
  (['r', 'e', 'r'], ['r', 'e', 'n', 'r', 'o']),
  (['r', 'e', 's'], ['r', 'e', 's', 'p', 'a']),
  (['r', 'e', 's', 'p'], ['r', 'e', 's', 'p', 'a']),
  (['r', 'e', 't'], ['p', 'r', 'e', 't', 'i']),
  (['r', 'e', 'v'], ['r', 'e', 'n', 'v', 'i']),
  (['r', 'i', '\'', 'a'], ['r', 'i', 'n', 'k', 'a']),
  (['r', 'i', '\'', 'e'], ['r', 'i', 'r', 'x', 'e']),
  (['r', 'i', '\'', 'i'], ['r', 'i', 't', 'l', 'i']),
  (['r', 'i', '\'', 'o'], ['c', 'r', 'i', 'n', 'o']),
  (['r', 'i', '\'', 'u'], ['r', 'i', 'n', 'j', 'u']),
  (['r', 'i', 'b'], ['c', 'r', 'i', 'b', 'e']),
  (['r', 'i', 'c'], ['t', 'r', 'i', 'c', 'u']),
  (['r', 'i', 'c', 'f'], ['r', 'i', 'c', 'f', 'u']),
  (['r', 'i', 'd'], ['c', 'r', 'i', 'd', 'a']),
  (['r', 'i', 'f'], ['r', 'i', 'c', 'f', 'u']),
  (['r', 'i', 'g'], ['r', 'i', 'g', 'n', 'i']),
  (['r', 'i', 'g', 'n'], ['r', 'i', 'g', 'n', 'i']),
  (['r', 'i', 'j'], ['r', 'i', 'j', 'n', 'o']),
  (['r', 'i', 'j', 'n'], ['r', 'i', 'j', 'n', 'o']),
  (['r', 'i', 'k'], ['r', 'i', 'n', 'k', 'a']),
  (['r', 'i', 'l'], ['r', 'i', 'l', 't', 'i']),
  (['r', 'i', 'l', 't'], ['r', 'i', 'l', 't', 'i']),
  (['r', 'i', 'm'], ['r', 'i', 'm', 'n', 'i']),
  (['r', 'i', 'm', 'n'], ['r', 'i', 'm', 'n', 'i']),
  (['r', 'i', 'n'], ['k', 'r', 'i', 'n', 'u'])]

/-- `canonluj.inc` as made by `canonluj.pl:8-27` from `reduced_gismu`: rafsi and word, sorted by rafsi, entries 2000-2099. -/
def r2g20 : List (Word × Word) := [
  (['r', 'i', 'n', 'c'], ['r', 'i', 'n', 'c', 'i']),
  (['r', 'i', 'n', 'j'], ['r', 'i', 'n', 'j', 'u']),
  (['r', 'i', 'n', 'k'], ['r', 'i', 'n', 'k', 'a']),
  (['r', 'i', 'n', 's'], ['r', 'i', 'n', 's', 'a']),
  (['r', 'i', 'p'], ['c', 'r', 'i', 'p', 'u']),
  (['r', 'i', 'r'], ['r', 'i', 'r', 'n', 'i']),
  (['r', 'i', 'r', 'c'], ['r', 'i', 'r', 'c', 'i']),
  (['r', 'i', 'r', 'n'], ['r', 'i', 'r', 'n', 'i']),
  (['r', 'i', 'r', 'x'], ['r', 'i', 'r', 'x', 'e']),
  (['r', 'i', 's'], ['r', 'i', 's', 'm', 'i']),
  (['r', 'i', 's', 'm'], ['r', 'i', 's', 'm', 'i']),
  (['r', 'i', 's', 'n'], ['r', 'i', 's', 'n', 'a']),
  (['r', 'i', 't'], ['b', 'r', 'i', 't', 'o']),
  (['r', 'i', 't', 'l'], ['r', 'i', 't', 'l', 'i']),
  (['r', 'i', 'v'], ['r', 'i', 'v', 'b', 'i']),
  (['r', 'i', 'v', 'b'], ['r', 'i', 'v', 'b', 'i']),
  (['r', 'i', 'x'], ['t', 'r', 'i', 'x', 'e']),
  (['r', 'o', '\'', 'a'], ['p', 'r', 'o', 's', 'a']),
  (['r', 'o', '\'', 'i'], ['r', 'o', 'k', 'c', 'i']),
  (['r', 'o', '\'', 'o'], ['r', 'o', 'p', 'n', 'o']),
  (['r', 'o', '\'', 'u'], ['r', 'o', 't', 's', 'u']),
  (['r', 'o', 'd'], ['b', 'r', 'o', 'd', 'a']),
  (['r', 'o', 'g'], ['r', 'o', 'm', 'g', 'e']),
  (['r', 'o', 'i'], ['r', 'o', 'i']),
  (['r', 'o', 'k'], ['r', 'o', 'k', 'c', 'i']),
  (['r', 'o', 'k', 'c'], ['r', 'o', 'k', 'c', 'i']),
  (['r', 'o', 'l'], ['r', 'o']),
  (['r', 'o', 'm'], ['r', 'o', 'i']),
  (['r', 'o', 'm', 'g'], ['r', 'o', 'm', 'g', 'e']),
  (['r', 'o', 'n'], ['r', 'o', 'p', 'n', 'o']),
  (['r', 'o', 'p', 'n'], ['r', 'o', 'p', 'n', 'o']),
  (['r', 'o', 'r'], ['r', 'o', 'r', 'c', 'i']),
  (['r', 'o', 'r', 'c'], ['r', 'o', 'r', 'c', 'i']),
  (['r', 'o', 's'], ['p', 'r', 'o', 's', 'a']),
  (['r', 'o', 't'], ['r', 'o', 't', 's', 'u']),
  (['r', 'o', 't', 's'], ['r', 'o', 't', 's', 'u']),
  (['r', 'o', 'z'], ['r', 'o', 'z', 'g', 'u']),
  (['r', 'o', 'z', 'g'], ['r', 'o', 'z', 'g', 'u']),
  (['r', 'u', '\'', 'a'], ['s', 'r', 'u', 'm', 'a']),
  (['r', 'u', '\'', 'e'], ['p', 'r', 'u', 'c', 'e']),
  (['r', 'u', '\'', 'i'], ['p', 'r', 'u', 'x', 'i']),
  (['r', 'u', '\'', 'o'], ['r', 'u', 's', 'k', 'o']),
  (['r', 'u', '\'', 'u'], ['r', 'u', 'p', 'n', 'u']),
  (['r', 'u', 'b'], ['r', 'u', 'b', 'l', 'e']),
  (['r', 'u', 'b', 'l'], ['r', 'u', 'b', 'l', 'e']),
  (['r', 'u', 'c'], ['p', 'r', 'u', 'c', 'e']),
  (['r', 'u', 'd'], ['d', 'r', 'u', 'd', 'i']),
  (['r', 'u', 'f'], ['r', 'u', 'f', 's', 'u']),
  (['r', 'u', 'f', 's'], ['r', 'u', 'f', 's', 'u']),
  (['r', 'u', 'j'], ['k', 'r', 'u', 'j', 'i']),
  (['r', 'u', 'k'], ['r', 'u', 's', 'k', 'o']),
  (['r', 'u', 'l'], ['x', 'r', 'u', 'l', 'a']),
  (['r', 'u', 'm'], ['r', 'u', 'n', 'm', 'e']),
  (['r', 'u', 'n'], ['r', 'u', 't', 'n', 'i']),
  (['r', 'u', 'n', 'm'], ['r', 'u', 'n', 'm', 'e']),
  (['r', 'u', 'n', 't'], ['r', 'u', 'n', 't', 'a']),
  (['r', 'u', 'p'], ['r', 'u', 'p', 'n', 'u']),
  (['r', 'u', 'p', 'n'], ['r', 'u', 'p', 'n', 'u']),
  (['r', 'u', 'r'], ['s', 'r', 'u', 'r', 'i']),
  (['r', 'u', 's'], ['g', 'r', 'u', 's', 'i']),
  (['r', 'u', 's', 'k'], ['r', 'u', 's', 'k', 'o']),
  (['r', 'u', 't'], ['g', 'r', 'u', 't', 'e']),
  (['r', 'u', 't', 'n'], ['r', 'u', 't', 'n', 'i']),
  (['r', 'u', 'v'], ['k', 'r', 'u', 'v', 'i']),
  (['r', 'u', 'x'], ['p', 'r', 'u', 'x', 'i']),
  (['s', 'a', '\'', 'a'], ['s', 'a', 'n', 'g', 'a']),
  (['s', 'a', '\'', 'e'], ['s', 'a', 't', 'r', 'e']),
  (['s', 'a', '\'', 'i'], ['s', 'a', 'n', 'l', 'i']),
  (['s', 'a', '\'', 'o'], ['s', 'a', 'l', 'p', 'o']),
  (['s', 'a', '\'', 'u'], ['s', 'a', 'r', 'c', 'u']),
  (['s', 'a', 'b'], ['s', 'a', 'b', 'j', 'i']),
  (['s', 'a', 'b', 'j'], ['s', 'a', 'b', 'j', 'i']),
  (['s', 'a', 'b', 'n'], ['s', 'a', 'b', 'n', 'u']),
  (['s', 'a', 'c'], ['s', 't', 'a', 'c', 'e']),
  (['s', 'a', 'c', 'k'], ['s', 'a', 'c', 'k', 'i']),
  (['s', 'a', 'c', 'l'], ['s', 'a', 'c', 'l', 'u']),
  (['s', 'a', 'd'], ['s', 'n', 'a', 'd', 'a']),
  (['s', 'a', 'd', 'j'], ['s', 'a', 'd', 'j', 'o']),
  (['s', 'a', 'g'], ['s', 'a', 'n', 'g', 'a']),
  (['s', 'a', 'i'], ['s', 'a', 'n', 'm', 'i']),
  (['s', 'a', 'j'], ['s', 'a', 'n', 'j', 'i']),
  (['s', 'a', 'k'], ['s', 'a', 'k', 'c', 'i']),
  (['s', 'a', 'k', 'c'], ['s', 'a', 'k', 'c', 'i']),
  (['s', 'a', 'k', 'l'], ['s', 'a', 'k', 'l', 'i']),
  (['s', 'a', 'k', 't'], ['s', 'a', 'k', 't', 'a']),
  (['s', 'a', 'l'], ['s', 'a', 'k', 'l', 'i']),
  (['s', 'a', 'l', 'c'], ['s', 'a', 'l', 'c', 'i']),
  (['s', 'a', 'l', 'p'], ['s', 'a', 'l', 'p', 'o']),
  (['s', 'a', 'l', 't'], ['s', 'a', 'l', 't', 'a']),
  (['s', 'a', 'm'], ['s', 'k', 'a', 'm', 'i']),
  (['s', 'a', 'm', 'c'], ['s', 'a', 'm', 'c', 'u']),
  (['s', 'a', 'm', 'p'], ['s', 'a', 'm', 'p', 'u']),
  (['s', 'a', 'n'], ['s', 'p', 'a', 'n', 'o']),
  (['s', 'a', 'n', 'c'], ['s', 'a', 'n', 'c', 'e']),
  (['s', 'a', 'n', 'g'], ['s', 'a', 'n', 'g', 'a']),
  (['s', 'a', 'n', 'j'], ['s', 'a', 'n', 'j', 'i']),
  (['s', 'a', 'n', 'l'], ['s', 'a', 'n', 'l', 'i']),
  (['s', 'a', 'n', 'm'], ['s', 'a', 'n', 'm', 'i']),
  (['s', 'a', 'n', 's'], ['s', 'a', 'n', 's', 'o']),
  (['s', 'a', 'n', 't'], ['s', 'a', 'n', 't', 'a'])]

/-- `canonluj.inc` as made by `canonluj.pl:8-27` from `reduced_gismu`: rafsi and word, sorted by rafsi, entries 2100-2199. -/
def r2g21 : List (Word × Word) := [
  (['s', 'a', 'p'], ['s', 'a', 'm', 'p', 'u']),
  (['s', 'a', 'r'], ['s', 'l', 'a', 'r', 'i']),
  (['s', 'a', 'r', 'c'], ['s', 'a', 'r', 'c', 'u']),
  (['s', 'a', 'r', 'j'], ['s', 'a', 'r', 'j', 'i']),
  (['s', 'a', 'r', 'l'], ['s', 'a', 'r', 'l', 'u']),
  (['s', 'a', 'r', 'x'], ['s', 'a', 'r', 'x', 'e']),
  (['s', 'a', 's'], ['s', 'r', 'a', 's', 'u']),
  (['s', 'a', 's', 'k'], ['s', 'a', 's', 'k', 'e']),
  (['s', 'a', 't'], ['s', 'a', 'k', 't', 'a']),
  (['s', 'a', 't', 'c'], ['s', 'a', 't', 'c', 'i']),
  (['s', 'a', 't', 'r'], ['s', 'a', 't', 'r', 'e']),
  (['s', 'a', 'u'], ['s', 'l', 'a', 'b', 'u']),
  (['s', 'a', 'v'], ['s', 'a', 'v', 'r', 'u']),
  (['s', 'a', 'v', 'r'], ['s', 'a', 'v', 'r', 'u']),
  (['s', 'a', 'x'], ['s', 'a', 'r', 'x', 'e']),
  (['s', 'a', 'z'], ['s', 'a', 'z', 'r', 'i']),
  (['s', 'a', 'z', 'r'], ['s', 'a', 'z', 'r', 'i']),
  (['s', 'e', '\'', 'a'], ['s', 'e', 't', 'c', 'a']),
  (['s', 'e', '\'', 'i'], ['s', 'e', 'v', 'z', 'i']),
  (['s', 'e', '\'', 'u'], ['s', 'e', 'l', 'f', 'u']),
  (['s', 'e', 'b'], ['s', 't', 'e', 'b', 'a']),
  (['s', 'e', 'c'], ['s', 'e', 'n', 'c', 'i']),
  (['s', 'e', 'd'], ['s', 't', 'e', 'd', 'u']),
  (['s', 'e', 'f'], ['s', 'e', 'l', 'f', 'u']),
  (['s', 'e', 'f', 't'], ['s', 'e', 'f', 't', 'a']),
  (['s', 'e', 'i'], ['s', 'e', 'p', 'l', 'i']),
  (['s', 'e', 'l'], ['s', 'e']),
  (['s', 'e', 'l', 'c'], ['s', 'e', 'l', 'c', 'i']),
  (['s', 'e', 'l', 'f'], ['s', 'e', 'l', 'f', 'u']),
  (['s', 'e', 'm', 't'], ['s', 'e', 'm', 't', 'o']),
  (['s', 'e', 'n'], ['s', 'e', 'n', 'p', 'i']),
  (['s', 'e', 'n', 'c'], ['s', 'e', 'n', 'c', 'i']),
  (['s', 'e', 'n', 'p'], ['s', 'e', 'n', 'p', 'i']),
  (['s', 'e', 'n', 't'], ['s', 'e', 'n', 't', 'a']),
  (['s', 'e', 'n', 'v'], ['s', 'e', 'n', 'v', 'a']),
  (['s', 'e', 'p'], ['s', 'e', 'p', 'l', 'i']),
  (['s', 'e', 'p', 'l'], ['s', 'e', 'p', 'l', 'i']),
  (['s', 'e', 'r'], ['s', 'e', 'r', 't', 'i']),
  (['s', 'e', 'r', 't'], ['s', 'e', 'r', 't', 'i']),
  (['s', 'e', 't'], ['s', 'e', 'n', 't', 'a']),
  (['s', 'e', 't', 'c'], ['s', 'e', 't', 'c', 'a']),
  (['s', 'e', 'v'], ['s', 'e', 'n', 'v', 'a']),
  (['s', 'e', 'v', 'z'], ['s', 'e', 'v', 'z', 'i']),
  (['s', 'e', 'z'], ['s', 'e', 'v', 'z', 'i']),
  (['s', 'f', 'a'], ['s', 'f', 'a', 's', 'a']),
  (['s', 'f', 'a', 'n'], ['s', 'f', 'a', 'n', 'i']),
  (['s', 'f', 'a', 's'], ['s', 'f', 'a', 's', 'a']),
  (['s', 'f', 'e'], ['s', 'e', 'f', 't', 'a']),
  (['s', 'f', 'o'], ['s', 'f', 'o', 'f', 'a']),
  (['s', 'f', 'o', 'f'], ['s', 'f', 'o', 'f', 'a']),
  (['s', 'f', 'u'], ['s', 'u', 'f', 't', 'i']),
  (['s', 'f', 'u', 'b'], ['s', 'f', 'u', 'b', 'u']),
  (['s', 'i', '\'', 'a'], ['s', 'i', 'n', 'm', 'a']),
  (['s', 'i', '\'', 'e'], ['s', 'n', 'i', 'm', 'e']),
  (['s', 'i', '\'', 'i'], ['s', 'i', 'c', 'n', 'i']),
  (['s', 'i', '\'', 'o'], ['s', 'i', 'd', 'b', 'o']),
  (['s', 'i', '\'', 'u'], ['s', 'i', 'm', 'x', 'u']),
  (['s', 'i', 'b'], ['s', 'i', 'd', 'b', 'o']),
  (['s', 'i', 'c'], ['s', 't', 'i', 'c', 'i']),
  (['s', 'i', 'c', 'l'], ['s', 'i', 'c', 'l', 'u']),
  (['s', 'i', 'c', 'n'], ['s', 'i', 'c', 'n', 'i']),
  (['s', 'i', 'd'], ['s', 't', 'i', 'd', 'i']),
  (['s', 'i', 'd', 'b'], ['s', 'i', 'd', 'b', 'o']),
  (['s', 'i', 'd', 'j'], ['s', 'i', 'd', 'j', 'u']),
  (['s', 'i', 'g'], ['s', 'i', 'g', 'j', 'a']),
  (['s', 'i', 'g', 'j'], ['s', 'i', 'g', 'j', 'a']),
  (['s', 'i', 'j'], ['s', 'k', 'i', 'j', 'i']),
  (['s', 'i', 'k'], ['s', 'i', 'l', 'k', 'a']),
  (['s', 'i', 'l'], ['s', 'i', 'c', 'l', 'u']),
  (['s', 'i', 'l', 'k'], ['s', 'i', 'l', 'k', 'a']),
  (['s', 'i', 'l', 'n'], ['s', 'i', 'l', 'n', 'a']),
  (['s', 'i', 'm'], ['s', 'i', 'm', 'x', 'u']),
  (['s', 'i', 'm', 'l'], ['s', 'i', 'm', 'l', 'u']),
  (['s', 'i', 'm', 's'], ['s', 'i', 'm', 's', 'a']),
  (['s', 'i', 'm', 'x'], ['s', 'i', 'm', 'x', 'u']),
  (['s', 'i', 'n'], ['t', 's', 'i', 'n', 'a']),
  (['s', 'i', 'n', 'c'], ['s', 'i', 'n', 'c', 'e']),
  (['s', 'i', 'n', 'm'], ['s', 'i', 'n', 'm', 'a']),
  (['s', 'i', 'n', 's'], ['s', 'i', 'n', 's', 'o']),
  (['s', 'i', 'n', 'x'], ['s', 'i', 'n', 'x', 'a']),
  (['s', 'i', 'p'], ['s', 'i', 'p', 'n', 'a']),
  (['s', 'i', 'p', 'n'], ['s', 'i', 'p', 'n', 'a']),
  (['s', 'i', 'r'], ['s', 'i', 'r', 'j', 'i']),
  (['s', 'i', 'r', 'j'], ['s', 'i', 'r', 'j', 'i']),
  (['s', 'i', 'r', 'x'], ['s', 'i', 'r', 'x', 'o']),
  (['s', 'i', 's'], ['s', 'i', 's', 'k', 'u']),
  (['s', 'i', 's', 'k'], ['s', 'i', 's', 'k', 'u']),
  (['s', 'i', 's', 't'], ['s', 'i', 's', 't', 'i']),
  (['s', 'i', 't'], ['s', 'i', 't', 'n', 'a']),
  (['s', 'i', 't', 'n'], ['s', 'i', 't', 'n', 'a']),
  (['s', 'i', 'v'], ['s', 'i', 'v', 'n', 'i']),
  (['s', 'i', 'v', 'n'], ['s', 'i', 'v', 'n', 'i']),
  (['s', 'i', 'x'], ['s', 'i', 'r', 'x', 'o']),
  (['s', 'i', 'z'], ['s', 'i', '\'', 'o']),
  (['s', 'k', 'a'], ['s', 'k', 'a', 'r', 'i']),
  (['s', 'k', 'a', 'c'], ['s', 'k', 'a', 'c', 'i']),
  (['s', 'k', 'a', 'm'], ['s', 'k', 'a', 'm', 'i']),
  (['s', 'k', 'a', 'p'], ['s', 'k', 'a', 'p', 'i']),
  (['s', 'k', 'a', 'r'], ['s', 'k', 'a', 'r', 'i']),
  (['s', 'k', 'e'], ['s', 'a', 's', 'k', 'e'])]

/-- `canonluj.inc` as made by `canonluj.pl:8-27` from `reduced_gismu`: rafsi and word, sorted by rafsi, entries 2200-2299. -/
def r2g22 : List (Word × Word) := [
  (['s', 'k', 'i'], ['s', 'k', 'i', 'c', 'u']),
  (['s', 'k', 'i', 'c'], ['s', 'k', 'i', 'c', 'u']),
  (['s', 'k', 'i', 'j'], ['s', 'k', 'i', 'j', 'i']),
  (['s', 'k', 'i', 'n'], ['s', 'k', 'i', 'n', 'a']),
  (['s', 'k', 'o'], ['s', 'k', 'o', 'r', 'i']),
  (['s', 'k', 'o', 'r'], ['s', 'k', 'o', 'r', 'i']),
  (['s', 'k', 'o', 't'], ['s', 'k', 'o', 't', 'o']),
  (['s', 'k', 'u'], ['c', 'u', 's', 'k', 'u']),
  (['s', 'k', 'u', 'r'], ['s', 'k', 'u', 'r', 'o']),
  (['s', 'l', 'a'], ['s', 'a', 'l', 'c', 'i']),
  (['s', 'l', 'a', 'b'], ['s', 'l', 'a', 'b', 'u']),
  (['s', 'l', 'a', 'k'], ['s', 'l', 'a', 'k', 'a']),
  (['s', 'l', 'a', 'm'], ['s', 'l', 'a', 'm', 'i']),
  (['s', 'l', 'a', 'n'], ['s', 'l', 'a', 'n', 'u']),
  (['s', 'l', 'a', 'r'], ['s', 'l', 'a', 'r', 'i']),
  (['s', 'l', 'a', 's'], ['s', 'l', 'a', 's', 'i']),
  (['s', 'l', 'e'], ['s', 'e', 'l', 'c', 'i']),
  (['s', 'l', 'i'], ['s', 'l', 'i', 'l', 'u']),
  (['s', 'l', 'i', 'g'], ['s', 'l', 'i', 'g', 'u']),
  (['s', 'l', 'i', 'l'], ['s', 'l', 'i', 'l', 'u']),
  (['s', 'l', 'i', 'r'], ['s', 'l', 'i', 'r', 'i']),
  (['s', 'l', 'o'], ['s', 'o', 'l', 'j', 'i']),
  (['s', 'l', 'o', 'v'], ['s', 'l', 'o', 'v', 'o']),
  (['s', 'l', 'u'], ['s', 'l', 'u', 'j', 'i']),
  (['s', 'l', 'u', 'j'], ['s', 'l', 'u', 'j', 'i']),
  (['s', 'l', 'u', 'n'], ['s', 'l', 'u', 'n', 'i']),
  (['s', 'm', 'a'], ['s', 'm', 'a', 'j', 'i']),
  (['s', 'm', 'a', 'c'], ['s', 'm', 'a', 'c', 'u']),
  (['s', 'm', 'a', 'd'], ['s', 'm', 'a', 'd', 'i']),
  (['s', 'm', 'a', 'j'], ['s', 'm', 'a', 'j', 'i']),
  (['s', 'm', 'a', 'n'], ['s', 'm', 'a', 'n', 'i']),
  (['s', 'm', 'e'], ['s', 'e', 'm', 't', 'o']),
  (['s', 'm', 'i'], ['s', 'i', 'm', 's', 'a']),
  (['s', 'm', 'o'], ['s', 'm', 'o', 'k', 'a']),
  (['s', 'm', 'o', 'k'], ['s', 'm', 'o', 'k', 'a']),
  (['s', 'm', 'u'], ['s', 'm', 'u', 'n', 'i']),
  (['s', 'm', 'u', 'c'], ['s', 'm', 'u', 'c', 'i']),
  (['s', 'm', 'u', 'n'], ['s', 'm', 'u', 'n', 'i']),
  (['s', 'n', 'a'], ['s', 'a', 'n', 'c', 'e']),
  (['s', 'n', 'a', 'd'], ['s', 'n', 'a', 'd', 'a']),
  (['s', 'n', 'a', 'n'], ['s', 'n', 'a', 'n', 'u']),
  (['s', 'n', 'e'], ['s', 'e', 'n', 'v', 'a']),
  (['s', 'n', 'i'], ['s', 'i', 'n', 'x', 'a']),
  (['s', 'n', 'i', 'd'], ['s', 'n', 'i', 'd', 'u']),
  (['s', 'n', 'i', 'm'], ['s', 'n', 'i', 'm', 'e']),
  (['s', 'n', 'i', 'p'], ['s', 'n', 'i', 'p', 'a']),
  (['s', 'n', 'o'], ['m', 'a', 's', 'n', 'o']),
  (['s', 'n', 'u'], ['c', 'a', 's', 'n', 'u']),
  (['s', 'n', 'u', 'j'], ['s', 'n', 'u', 'j', 'i']),
  (['s', 'n', 'u', 'r'], ['s', 'n', 'u', 'r', 'a']),
  (['s', 'n', 'u', 't'], ['s', 'n', 'u', 't', 'i']),
  (['s', 'o', '\'', 'a'], ['s', 'o', 'v', 'd', 'a']),
  (['s', 'o', '\'', 'e'], ['s', 'o', 'b', 'd', 'e']),
  (['s', 'o', '\'', 'i'], ['s', 'o', '\'', 'i']),
  (['s', 'o', '\'', 'o'], ['s', 'o', 'm', 'b', 'o']),
  (['s', 'o', 'b'], ['s', 'o', 'b', 'd', 'e']),
  (['s', 'o', 'b', 'd'], ['s', 'o', 'b', 'd', 'e']),
  (['s', 'o', 'c'], ['s', 'o', 'r', 'c', 'u']),
  (['s', 'o', 'd'], ['s', 'o', 'd', 'v', 'a']),
  (['s', 'o', 'd', 'n'], ['s', 'o', 'd', 'n', 'a']),
  (['s', 'o', 'd', 'v'], ['s', 'o', 'd', 'v', 'a']),
  (['s', 'o', 'f'], ['s', 'o', 'f', 't', 'o']),
  (['s', 'o', 'f', 't'], ['s', 'o', 'f', 't', 'o']),
  (['s', 'o', 'g'], ['s', 'o', 'r', 'g', 'u']),
  (['s', 'o', 'i'], ['s', 'o', 'n', 'c', 'i']),
  (['s', 'o', 'j'], ['s', 'o', '\'', 'a']),
  (['s', 'o', 'l'], ['s', 'o', 'l', 'r', 'i']),
  (['s', 'o', 'l', 'j'], ['s', 'o', 'l', 'j', 'i']),
  (['s', 'o', 'l', 'r'], ['s', 'o', 'l', 'r', 'i']),
  (['s', 'o', 'm'], ['s', 'o', 'm', 'b', 'o']),
  (['s', 'o', 'm', 'b'], ['s', 'o', 'm', 'b', 'o']),
  (['s', 'o', 'n'], ['s', 'o', 'n', 'c', 'i']),
  (['s', 'o', 'n', 'c'], ['s', 'o', 'n', 'c', 'i']),
  (['s', 'o', 'p'], ['s', 'o', '\'', 'e']),
  (['s', 'o', 'r'], ['s', 'o', '\'', 'i']),
  (['s', 'o', 'r', 'c'], ['s', 'o', 'r', 'c', 'u']),
  (['s', 'o', 'r', 'g'], ['s', 'o', 'r', 'g', 'u']),
  (['s', 'o', 's'], ['s', 'o', '\'', 'o']),
  (['s', 'o', 't'], ['s', 'o', '\'', 'u']),
  (['s', 'o', 'v'], ['s', 'o', 'v', 'd', 'a']),
  (['s', 'o', 'v', 'd'], ['s', 'o', 'v', 'd', 'a']),
  (['s', 'o', 'z'], ['s', 'o']),
  (['s', 'p', 'a'], ['s', 'p', 'a', 't', 'i']),
  (['s', 'p', 'a', 'j'], ['s', 'p', 'a', 'j', 'i']),
  (['s', 'p', 'a', 'l'], ['s', 'p', 'a', 'l', 'i']),
  (['s', 'p', 'a', 'n'], ['s', 'p', 'a', 'n', 'o']),
  (['s', 'p', 'a', 't'], ['s', 'p', 'a', 't', 'i']),
  (['s', 'p', 'e'], ['s', 'p', 'e', 'n', 'i']),
  (['s', 'p', 'e', 'n'], ['s', 'p', 'e', 'n', 'i']),
  (['s', 'p', 'i'], ['s', 'p', 'i', 's', 'a']),
  (['s', 'p', 'i', 's'], ['s', 'p', 'i', 's', 'a']),
  (['s', 'p', 'i', 't'], ['s', 'p', 'i', 't', 'a']),
  (['s', 'p', 'o'], ['d', 'a', 's', 'p', 'o']),
  (['s', 'p', 'o', 'f'], ['s', 'p', 'o', 'f', 'u']),
  (['s', 'p', 'o', 'j'], ['s', 'p', 'o', 'j', 'a']),
  (['s', 'p', 'u'], ['s', 'p', 'u', 'd', 'a']),
  (['s', 'p', 'u', 'd'], ['s', 'p', 'u', 'd', 'a']),
  (['s', 'p', 'u', 't'], ['s', 'p', 'u', 't', 'u']),
  (['s', 'r', 'a'], ['s', 'a', 'r', 'j', 'i']),
  (['s', 'r', 'a', 'j'], ['s', 'r', 'a', 'j', 'i'])]

/-- `canonluj.inc` as made by `canonluj.pl:8-27` from `reduced_gismu`: rafsi and word, sorted by rafsi, entries 2300-2399. -/
def r2g23 : List (Word × Word) := [
  (['s', 'r', 'a', 'k'], ['s', 'r', 'a', 'k', 'u']),
  (['s', 'r', 'a', 'l'], ['s', 'r', 'a', 'l', 'o']),
  (['s', 'r', 'a', 'n'], ['s', 'r', 'a', 'n', 'a']),
  (['s', 'r', 'a', 's'], ['s', 'r', 'a', 's', 'u']),
  (['s', 'r', 'e'], ['s', 'r', 'e', 'r', 'a']),
  (['s', 'r', 'e', 'r'], ['s', 'r', 'e', 'r', 'a']),
  (['s', 'r', 'i'], ['d', 'a', 's', 'r', 'i']),
  (['s', 'r', 'i', 't'], ['s', 'r', 'i', 't', 'o']),
  (['s', 'r', 'o'], ['s', 'o', 'r', 'c', 'u']),
  (['s', 'r', 'u'], ['s', 'r', 'u', 'r', 'i']),
  (['s', 'r', 'u', 'm'], ['s', 'r', 'u', 'm', 'a']),
  (['s', 'r', 'u', 'r'], ['s', 'r', 'u', 'r', 'i']),
  (['s', 't', 'a'], ['s', 't', 'a', 'l', 'i']),
  (['s', 't', 'a', 'c'], ['s', 't', 'a', 'c', 'e']),
  (['s', 't', 'a', 'g'], ['s', 't', 'a', 'g', 'i']),
  (['s', 't', 'a', 'k'], ['s', 't', 'a', 'k', 'u']),
  (['s', 't', 'a', 'l'], ['s', 't', 'a', 'l', 'i']),
  (['s', 't', 'a', 'n'], ['s', 't', 'a', 'n', 'i']),
  (['s', 't', 'a', 'p'], ['s', 't', 'a', 'p', 'a']),
  (['s', 't', 'a', 's'], ['s', 't', 'a', 's', 'u']),
  (['s', 't', 'a', 't'], ['s', 't', 'a', 't', 'i']),
  (['s', 't', 'e'], ['l', 'i', 's', 't', 'e']),
  (['s', 't', 'e', 'b'], ['s', 't', 'e', 'b', 'a']),
  (['s', 't', 'e', 'c'], ['s', 't', 'e', 'c', 'i']),
  (['s', 't', 'e', 'd'], ['s', 't', 'e', 'd', 'u']),
  (['s', 't', 'e', 'l'], ['s', 't', 'e', 'l', 'a']),
  (['s', 't', 'e', 'r'], ['s', 't', 'e', 'r', 'o']),
  (['s', 't', 'i'], ['s', 'i', 's', 't', 'i']),
  (['s', 't', 'i', 'c'], ['s', 't', 'i', 'c', 'i']),
  (['s', 't', 'i', 'd'], ['s', 't', 'i', 'd', 'i']),
  (['s', 't', 'i', 'k'], ['s', 't', 'i', 'k', 'a']),
  (['s', 't', 'i', 'z'], ['s', 't', 'i', 'z', 'u']),
  (['s', 't', 'o'], ['s', 't', 'o', 'd', 'i']),
  (['s', 't', 'o', 'd'], ['s', 't', 'o', 'd', 'i']),
  (['s', 't', 'u'], ['s', 't', 'u', 'z', 'i']),
  (['s', 't', 'u', 'n'], ['s', 't', 'u', 'n', 'a']),
  (['s', 't', 'u', 'r'], ['s', 't', 'u', 'r', 'a']),
  (['s', 't', 'u', 'z'], ['s', 't', 'u', 'z', 'i']),
  (['s', 'u', '\'', 'a'], ['s', 't', 'u', 'r', 'a']),
  (['s', 'u', '\'', 'e'], ['s', 'u', '\'', 'e']),
  (['s', 'u', '\'', 'i'], ['s', 'u', 'm', 't', 'i']),
  (['s', 'u', '\'', 'o'], ['s', 'u', '\'', 'o']),
  (['s', 'u', '\'', 'u'], ['s', 'f', 'u', 'b', 'u']),
  (['s', 'u', 'b'], ['s', 'f', 'u', 'b', 'u']),
  (['s', 'u', 'c'], ['s', 'u', 'c', 't', 'a']),
  (['s', 'u', 'c', 't'], ['s', 'u', 'c', 't', 'a']),
  (['s', 'u', 'd'], ['s', 'u', 'd', 'g', 'a']),
  (['s', 'u', 'd', 'g'], ['s', 'u', 'd', 'g', 'a']),
  (['s', 'u', 'f', 't'], ['s', 'u', 'f', 't', 'i']),
  (['s', 'u', 'g'], ['s', 'u', 'n', 'g', 'a']),
  (['s', 'u', 'j'], ['s', 'u', 'm', 'j', 'i']),
  (['s', 'u', 'k'], ['s', 'u', 'k', 's', 'a']),
  (['s', 'u', 'k', 's'], ['s', 'u', 'k', 's', 'a']),
  (['s', 'u', 'l'], ['s', 'u', 'n', 'l', 'a']),
  (['s', 'u', 'm'], ['s', 'u', 'm', 't', 'i']),
  (['s', 'u', 'm', 'j'], ['s', 'u', 'm', 'j', 'i']),
  (['s', 'u', 'm', 'n'], ['s', 'u', 'm', 'n', 'e']),
  (['s', 'u', 'm', 't'], ['s', 'u', 'm', 't', 'i']),
  (['s', 'u', 'n'], ['s', 't', 'u', 'n', 'a']),
  (['s', 'u', 'n', 'g'], ['s', 'u', 'n', 'g', 'a']),
  (['s', 'u', 'n', 'l'], ['s', 'u', 'n', 'l', 'a']),
  (['s', 'u', 'p'], ['s', 'u', '\'', 'e']),
  (['s', 'u', 'r'], ['s', 'u', 'r', 'l', 'a']),
  (['s', 'u', 'r', 'l'], ['s', 'u', 'r', 'l', 'a']),
  (['s', 'u', 't'], ['s', 'u', 't', 'r', 'a']),
  (['s', 'u', 't', 'r'], ['s', 'u', 't', 'r', 'a']),
  (['s', 'u', 'v'], ['s', 'u', '\'', 'u']),
  (['s', 'u', 'z'], ['s', 'u', '\'', 'o']),
  (['t', 'a', '\'', 'a'], ['t', 'a', 'v', 'l', 'a']),
  (['t', 'a', '\'', 'e'], ['t', 'a', 'n', 'x', 'e']),
  (['t', 'a', '\'', 'i'], ['t', 'a', 't', 'p', 'i']),
  (['t', 'a', '\'', 'o'], ['t', 'a', 'n', 'b', 'o']),
  (['t', 'a', '\'', 'u'], ['t', 'a', 'x', 'f', 'u']),
  (['t', 'a', 'b'], ['t', 'a', 'b', 'n', 'o']),
  (['t', 'a', 'b', 'n'], ['t', 'a', 'b', 'n', 'o']),
  (['t', 'a', 'b', 'r'], ['t', 'a', 'b', 'r', 'a']),
  (['t', 'a', 'c'], ['t', 'a', 'n', 'c', 'e']),
  (['t', 'a', 'd'], ['t', 'a', 'd', 'n', 'i']),
  (['t', 'a', 'd', 'j'], ['t', 'a', 'd', 'j', 'i']),
  (['t', 'a', 'd', 'n'], ['t', 'a', 'd', 'n', 'i']),
  (['t', 'a', 'f'], ['t', 'a', 'x', 'f', 'u']),
  (['t', 'a', 'g'], ['t', 'a', 'g', 'j', 'i']),
  (['t', 'a', 'g', 'j'], ['t', 'a', 'g', 'j', 'i']),
  (['t', 'a', 'i'], ['t', 'a', 'r', 'm', 'i']),
  (['t', 'a', 'j'], ['t', 'a', 'm', 'j', 'i']),
  (['t', 'a', 'k'], ['s', 't', 'a', 'k', 'u']),
  (['t', 'a', 'l'], ['t', 'a', 'l', 's', 'a']),
  (['t', 'a', 'l', 's'], ['t', 'a', 'l', 's', 'a']),
  (['t', 'a', 'm'], ['t', 'a', 'r', 'm', 'i']),
  (['t', 'a', 'm', 'c'], ['t', 'a', 'm', 'c', 'a']),
  (['t', 'a', 'm', 'j'], ['t', 'a', 'm', 'j', 'i']),
  (['t', 'a', 'm', 'n'], ['t', 'a', 'm', 'n', 'e']),
  (['t', 'a', 'n'], ['t', 's', 'a', 'n', 'i']),
  (['t', 'a', 'n', 'b'], ['t', 'a', 'n', 'b', 'o']),
  (['t', 'a', 'n', 'c'], ['t', 'a', 'n', 'c', 'e']),
  (['t', 'a', 'n', 'j'], ['t', 'a', 'n', 'j', 'o']),
  (['t', 'a', 'n', 'k'], ['t', 'a', 'n', 'k', 'o']),
  (['t', 'a', 'n', 'r'], ['t', 'a', 'n', 'r', 'u']),
  (['t', 'a', 'n', 's'], ['t', 'a', 'n', 's', 'i']),
  (['t', 'a', 'n', 'x'], ['t', 'a', 'n', 'x', 'e'])]

/-- `canonluj.inc` as made by `canonluj.pl:8-27` from `reduced_gismu`: rafsi and word, sorted by rafsi, entries 2400-2499. -/
def r2g24 : List (Word × Word) := [
  (['t', 'a', 'p'], ['s', 't', 'a', 'p', 'a']),
  (['t', 'a', 'p', 'l'], ['t', 'a', 'p', 'l', 'a']),
  (['t', 'a', 'r'], ['t', 'a', 'r', 'c', 'i']),
  (['t', 'a', 'r', 'b'], ['t', 'a', 'r', 'b', 'i']),
  (['t', 'a', 'r', 'c'], ['t', 'a', 'r', 'c', 'i']),
  (['t', 'a', 'r', 'l'], ['t', 'a', 'r', 'l', 'a']),
  (['t', 'a', 'r', 'm'], ['t', 'a', 'r', 'm', 'i']),
  (['t', 'a', 'r', 't'], ['t', 'a', 'r', 't', 'i']),
  (['t', 'a', 's'], ['t', 'a', 'n', 's', 'i']),
  (['t', 'a', 's', 'k'], ['t', 'a', 's', 'k', 'e']),
  (['t', 'a', 't'], ['t', 'a', 't', 'r', 'u']),
  (['t', 'a', 't', 'p'], ['t', 'a', 't', 'p', 'i']),
  (['t', 'a', 't', 'r'], ['t', 'a', 't', 'r', 'u']),
  (['t', 'a', 'u'], ['t', 'a', 'n', 'r', 'u']),
  (['t', 'a', 'v'], ['t', 'a', 'v', 'l', 'a']),
  (['t', 'a', 'v', 'l'], ['t', 'a', 'v', 'l', 'a']),
  (['t', 'a', 'x'], ['t', 'a', 'n', 'x', 'e']),
  (['t', 'a', 'x', 'f'], ['t', 'a', 'x', 'f', 'u']),
  (['t', 'a', 'z'], ['t', 'a']),
  (['t', 'c', 'a'], ['t', 'c', 'a', 'd', 'u']),
  (['t', 'c', 'a', 'c'], ['t', 'c', 'a', 'c', 'i']),
  (['t', 'c', 'a', 'd'], ['t', 'c', 'a', 'd', 'u']),
  (['t', 'c', 'a', 'n'], ['t', 'c', 'a', 'n', 'a']),
  (['t', 'c', 'a', 't'], ['t', 'c', 'a', 't', 'i']),
  (['t', 'c', 'e'], ['m', 'u', 't', 'c', 'e']),
  (['t', 'c', 'e', 'n'], ['t', 'c', 'e', 'n', 'a']),
  (['t', 'c', 'i'], ['t', 'u', 't', 'c', 'i']),
  (['t', 'c', 'i', 'c'], ['t', 'c', 'i', 'c', 'a']),
  (['t', 'c', 'i', 'd'], ['t', 'c', 'i', 'd', 'u']),
  (['t', 'c', 'i', 'k'], ['t', 'c', 'i', 'k', 'a']),
  (['t', 'c', 'i', 'l'], ['t', 'c', 'i', 'l', 'a']),
  (['t', 'c', 'i', 'm'], ['t', 'c', 'i', 'm', 'a']),
  (['t', 'c', 'i', 'n'], ['t', 'c', 'i', 'n', 'i']),
  (['t', 'c', 'i', 't'], ['t', 'c', 'i', 't', 'a']),
  (['t', 'c', 'o'], ['k', 'e', 't', 'c', 'o']),
  (['t', 'c', 'u'], ['n', 'i', 't', 'c', 'u']),
  (['t', 'e', '\'', 'a'], ['t', 'e', 'r', 'p', 'a']),
  (['t', 'e', '\'', 'i'], ['s', 't', 'e', 'c', 'i']),
  (['t', 'e', '\'', 'o'], ['s', 't', 'e', 'r', 'o']),
  (['t', 'e', '\'', 'u'], ['t', 'e', 'n', 'g', 'u']),
  (['t', 'e', 'b'], ['c', 't', 'e', 'b', 'i']),
  (['t', 'e', 'c'], ['s', 't', 'e', 'c', 'i']),
  (['t', 'e', 'd'], ['t', 'e', 'r', 'd', 'i']),
  (['t', 'e', 'f'], ['t', 'e', 'n', 'f', 'a']),
  (['t', 'e', 'g'], ['t', 'e', 'n', 'g', 'u']),
  (['t', 'e', 'i'], ['t', 'e', 'm', 'c', 'i']),
  (['t', 'e', 'k'], ['c', 't', 'e', 'k', 'i']),
  (['t', 'e', 'l'], ['s', 't', 'e', 'l', 'a']),
  (['t', 'e', 'm'], ['t', 'e', 'm', 'c', 'i']),
  (['t', 'e', 'm', 'c'], ['t', 'e', 'm', 'c', 'i']),
  (['t', 'e', 'n'], ['t', 'c', 'e', 'n', 'a']),
  (['t', 'e', 'n', 'f'], ['t', 'e', 'n', 'f', 'a']),
  (['t', 'e', 'n', 'g'], ['t', 'e', 'n', 'g', 'u']),
  (['t', 'e', 'p'], ['t', 'e', 'r', 'p', 'a']),
  (['t', 'e', 'r'], ['t', 'e']),
  (['t', 'e', 'r', 'd'], ['t', 'e', 'r', 'd', 'i']),
  (['t', 'e', 'r', 'p'], ['t', 'e', 'r', 'p', 'a']),
  (['t', 'e', 'r', 't'], ['t', 'e', 'r', 't', 'o']),
  (['t', 'e', 't'], ['t', 'e', 'r', 't', 'o']),
  (['t', 'i', '\'', 'a'], ['t', 'c', 'i', 'm', 'a']),
  (['t', 'i', '\'', 'e'], ['t', 'r', 'i', 'x', 'e']),
  (['t', 'i', '\'', 'i'], ['s', 't', 'i', 'd', 'i']),
  (['t', 'i', '\'', 'o'], ['c', 't', 'i', 'n', 'o']),
  (['t', 'i', '\'', 'u'], ['t', 'i', 'x', 'n', 'u']),
  (['t', 'i', 'b'], ['t', 'i', 'n', 'b', 'e']),
  (['t', 'i', 'c'], ['t', 'c', 'i', 'c', 'a']),
  (['t', 'i', 'd'], ['t', 'c', 'i', 'd', 'u']),
  (['t', 'i', 'f'], ['t', 'i']),
  (['t', 'i', 'g'], ['t', 'i', 'g', 'n', 'i']),
  (['t', 'i', 'g', 'n'], ['t', 'i', 'g', 'n', 'i']),
  (['t', 'i', 'j'], ['t', 'i', 'l', 'j', 'u']),
  (['t', 'i', 'k'], ['s', 't', 'i', 'k', 'a']),
  (['t', 'i', 'k', 'p'], ['t', 'i', 'k', 'p', 'a']),
  (['t', 'i', 'l'], ['t', 'c', 'i', 'l', 'a']),
  (['t', 'i', 'l', 'j'], ['t', 'i', 'l', 'j', 'u']),
  (['t', 'i', 'm'], ['t', 'c', 'i', 'm', 'a']),
  (['t', 'i', 'n'], ['t', 'i', 'r', 'n', 'a']),
  (['t', 'i', 'n', 'b'], ['t', 'i', 'n', 'b', 'e']),
  (['t', 'i', 'n', 'c'], ['t', 'i', 'n', 'c', 'i']),
  (['t', 'i', 'n', 's'], ['t', 'i', 'n', 's', 'a']),
  (['t', 'i', 'p'], ['t', 'i', 'k', 'p', 'a']),
  (['t', 'i', 'r'], ['t', 'i', 'r', 's', 'e']),
  (['t', 'i', 'r', 'n'], ['t', 'i', 'r', 'n', 'a']),
  (['t', 'i', 'r', 's'], ['t', 'i', 'r', 's', 'e']),
  (['t', 'i', 'r', 'x'], ['t', 'i', 'r', 'x', 'u']),
  (['t', 'i', 's'], ['t', 'i', 's', 'n', 'a']),
  (['t', 'i', 's', 'n'], ['t', 'i', 's', 'n', 'a']),
  (['t', 'i', 't'], ['t', 'i', 't', 'l', 'a']),
  (['t', 'i', 't', 'l'], ['t', 'i', 't', 'l', 'a']),
  (['t', 'i', 'v'], ['t', 'i', 'v', 'n', 'i']),
  (['t', 'i', 'v', 'n'], ['t', 'i', 'v', 'n', 'i']),
  (['t', 'i', 'x'], ['t', 'i', 'x', 'n', 'u']),
  (['t', 'i', 'x', 'n'], ['t', 'i', 'x', 'n', 'u']),
  (['t', 'i', 'z'], ['s', 't', 'i', 'z', 'u']),
  (['t', 'o', '\'', 'a'], ['t', 'o', 'n', 'g', 'a']),
  (['t', 'o', '\'', 'e'], ['t', 'o', '\'', 'e']),
  (['t', 'o', '\'', 'i'], ['t', 'o', 'r', 'n', 'i']),
  (['t', 'o', '\'', 'u'], ['t', 'o', 'r', 'd', 'u']),
  (['t', 'o', 'c'], ['t', 'r', 'o', 'c', 'i']),
  (['t', 'o', 'd'], ['t', 'o', 'l', 'd', 'i'])]

/-- `canonluj.inc` as made by `canonluj.pl:8-27` from `reduced_gismu`: rafsi and word, sorted by rafsi, entries 2500-2599. -/
def r2g25 : List (Word × Word) := [
  (['t', 'o', 'g'], ['t', 'o', 'n', 'g', 'a']),
  (['t', 'o', 'i'], ['t', 'r', 'o', 'c', 'i']),
  (['t', 'o', 'k'], ['t', 'o', 'k', 'n', 'u']),
  (['t', 'o', 'k', 'n'], ['t', 'o', 'k', 'n', 'u']),
  (['t', 'o', 'l'], ['t', 'o', '\'', 'e']),
  (['t', 'o', 'l', 'd'], ['t', 'o', 'l', 'd', 'i']),
  (['t', 'o', 'n'], ['t', 'o', 'r', 'n', 'i']),
  (['t', 'o', 'n', 'g'], ['t', 'o', 'n', 'g', 'a']),
  (['t', 'o', 'r'], ['t', 'o', 'r', 'd', 'u']),
  (['t', 'o', 'r', 'd'], ['t', 'o', 'r', 'd', 'u']),
  (['t', 'o', 'r', 'n'], ['t', 'o', 'r', 'n', 'i']),
  (['t', 'r', 'a'], ['t', 'a', 'r', 't', 'i']),
  (['t', 'r', 'a', 'j'], ['t', 'r', 'a', 'j', 'i']),
  (['t', 'r', 'a', 'n'], ['t', 'r', 'a', 'n', 'o']),
  (['t', 'r', 'a', 't'], ['t', 'r', 'a', 't', 'i']),
  (['t', 'r', 'e'], ['m', 'i', 't', 'r', 'e']),
  (['t', 'r', 'e', 'n'], ['t', 'r', 'e', 'n', 'e']),
  (['t', 'r', 'i'], ['t', 'r', 'i', 'n', 'a']),
  (['t', 'r', 'i', 'c'], ['t', 'r', 'i', 'c', 'u']),
  (['t', 'r', 'i', 'n'], ['t', 'r', 'i', 'n', 'a']),
  (['t', 'r', 'i', 'x'], ['t', 'r', 'i', 'x', 'e']),
  (['t', 'r', 'o'], ['j', 'i', 't', 'r', 'o']),
  (['t', 'r', 'o', 'c'], ['t', 'r', 'o', 'c', 'i']),
  (['t', 'r', 'u'], ['t', 'u', 'r', 'n', 'i']),
  (['t', 's', 'a'], ['t', 's', 'a', 'l', 'i']),
  (['t', 's', 'a', 'l'], ['t', 's', 'a', 'l', 'i']),
  (['t', 's', 'a', 'n'], ['t', 's', 'a', 'n', 'i']),
  (['t', 's', 'a', 'p'], ['t', 's', 'a', 'p', 'i']),
  (['t', 's', 'e'], ['z', 'u', 't', 's', 'e']),
  (['t', 's', 'i'], ['t', 's', 'i', 'j', 'u']),
  (['t', 's', 'i', 'j'], ['t', 's', 'i', 'j', 'u']),
  (['t', 's', 'i', 'n'], ['t', 's', 'i', 'n', 'a']),
  (['t', 's', 'u'], ['r', 'o', 't', 's', 'u']),
  (['t', 'u', '\'', 'a'], ['t', 'u', 'm', 'l', 'a']),
  (['t', 'u', '\'', 'e'], ['t', 'u', 'p', 'l', 'e']),
  (['t', 'u', '\'', 'i'], ['t', 'u', 'g', 'n', 'i']),
  (['t', 'u', '\'', 'o'], ['t', 'u', 'n', 'l', 'o']),
  (['t', 'u', '\'', 'u'], ['t', 'u', 'b', 'n', 'u']),
  (['t', 'u', 'b'], ['t', 'u', 'n', 'b', 'a']),
  (['t', 'u', 'b', 'n'], ['t', 'u', 'b', 'n', 'u']),
  (['t', 'u', 'f'], ['t', 'u']),
  (['t', 'u', 'g'], ['t', 'u', 'g', 'n', 'i']),
  (['t', 'u', 'g', 'n'], ['t', 'u', 'g', 'n', 'i']),
  (['t', 'u', 'j'], ['t', 'u', 'j', 'l', 'i']),
  (['t', 'u', 'j', 'l'], ['t', 'u', 'j', 'l', 'i']),
  (['t', 'u', 'k'], ['t', 'u', 'n', 'k', 'a']),
  (['t', 'u', 'l'], ['t', 'u', 'n', 'l', 'o']),
  (['t', 'u', 'm'], ['t', 'u', 'm', 'l', 'a']),
  (['t', 'u', 'm', 'l'], ['t', 'u', 'm', 'l', 'a']),
  (['t', 'u', 'n'], ['t', 'u', 'n', 't', 'a']),
  (['t', 'u', 'n', 'b'], ['t', 'u', 'n', 'b', 'a']),
  (['t', 'u', 'n', 'k'], ['t', 'u', 'n', 'k', 'a']),
  (['t', 'u', 'n', 'l'], ['t', 'u', 'n', 'l', 'o']),
  (['t', 'u', 'n', 't'], ['t', 'u', 'n', 't', 'a']),
  (['t', 'u', 'p'], ['t', 'u', 'p', 'l', 'e']),
  (['t', 'u', 'p', 'l'], ['t', 'u', 'p', 'l', 'e']),
  (['t', 'u', 'r'], ['s', 't', 'u', 'r', 'a']),
  (['t', 'u', 'r', 'n'], ['t', 'u', 'r', 'n', 'i']),
  (['t', 'u', 't'], ['t', 'u', 't', 'r', 'a']),
  (['t', 'u', 't', 'c'], ['t', 'u', 't', 'c', 'i']),
  (['t', 'u', 't', 'r'], ['t', 'u', 't', 'r', 'a']),
  (['t', 'u', 'z'], ['s', 't', 'u', 'z', 'i']),
  (['v', 'a', '\'', 'i'], ['v', 'a', 'm', 'j', 'i']),
  (['v', 'a', '\'', 'u'], ['v', 'a', 's', 'x', 'u']),
  (['v', 'a', 'b'], ['v', 'a', 'n', 'b', 'i']),
  (['v', 'a', 'c'], ['v', 'a', 'n', 'c', 'i']),
  (['v', 'a', 'c', 'r'], ['v', 'a', 'c', 'r', 'i']),
  (['v', 'a', 'i'], ['v', 'a', 'j', 'n', 'i']),
  (['v', 'a', 'j'], ['v', 'a', 'j', 'n', 'i']),
  (['v', 'a', 'j', 'n'], ['v', 'a', 'j', 'n', 'i']),
  (['v', 'a', 'l'], ['v', 'a', 'l', 's', 'i']),
  (['v', 'a', 'l', 's'], ['v', 'a', 'l', 's', 'i']),
  (['v', 'a', 'm'], ['v', 'a', 'm', 'j', 'i']),
  (['v', 'a', 'm', 'j'], ['v', 'a', 'm', 'j', 'i']),
  (['v', 'a', 'm', 't'], ['v', 'a', 'm', 't', 'u']),
  (['v', 'a', 'n'], ['v', 'a', 'n', 'j', 'u']),
  (['v', 'a', 'n', 'b'], ['v', 'a', 'n', 'b', 'i']),
  (['v', 'a', 'n', 'c'], ['v', 'a', 'n', 'c', 'i']),
  (['v', 'a', 'n', 'j'], ['v', 'a', 'n', 'j', 'u']),
  (['v', 'a', 'r'], ['v', 'a', 'c', 'r', 'i']),
  (['v', 'a', 's'], ['v', 'a', 's', 'r', 'u']),
  (['v', 'a', 's', 'r'], ['v', 'a', 's', 'r', 'u']),
  (['v', 'a', 's', 'x'], ['v', 'a', 's', 'x', 'u']),
  (['v', 'a', 't'], ['v', 'a', 'm', 't', 'u']),
  (['v', 'a', 'u'], ['v', 'a', 's', 'r', 'u']),
  (['v', 'a', 'x'], ['v', 'a', 's', 'x', 'u']),
  (['v', 'a', 'z'], ['v', 'a']),
  (['v', 'e', '\'', 'a'], ['v', 'e', 'r', 'b', 'a']),
  (['v', 'e', '\'', 'e'], ['v', 'e', '\'', 'e']),
  (['v', 'e', '\'', 'u'], ['v', 'e', 'c', 'n', 'u']),
  (['v', 'e', 'c', 'n'], ['v', 'e', 'c', 'n', 'u']),
  (['v', 'e', 'f'], ['v', 'e', 'n', 'f', 'u']),
  (['v', 'e', 'i'], ['v', 'r', 'e', 'j', 'i']),
  (['v', 'e', 'l'], ['v', 'e']),
  (['v', 'e', 'n'], ['v', 'e', 'c', 'n', 'u']),
  (['v', 'e', 'n', 'f'], ['v', 'e', 'n', 'f', 'u']),
  (['v', 'e', 'n', 's'], ['v', 'e', 'n', 's', 'a']),
  (['v', 'e', 'r'], ['v', 'e', 'r', 'b', 'a']),
  (['v', 'e', 'r', 'b'], ['v', 'e', 'r', 'b', 'a']),
  (['v', 'e', 's'], ['v', 'e', 'n', 's', 'a'])]

/-- `canonluj.inc` as made by `canonluj.pl:8-27` from `reduced_gismu`: rafsi and word, sorted by rafsi, entries 2600-2699. -/
def r2g26 : List (Word × Word) := [
  (['v', 'i', '\'', 'a'], ['v', 'i', 's', 'k', 'a']),
  (['v', 'i', '\'', 'e'], ['v', 'i', 't', 'k', 'e']),
  (['v', 'i', '\'', 'i'], ['v', 'i', 'k', 'm', 'i']),
  (['v', 'i', '\'', 'o'], ['v', 'i', 't', 'n', 'o']),
  (['v', 'i', '\'', 'u'], ['v', 'i', 'm', 'c', 'u']),
  (['v', 'i', 'b'], ['v', 'i', 'b', 'n', 'a']),
  (['v', 'i', 'b', 'n'], ['v', 'i', 'b', 'n', 'a']),
  (['v', 'i', 'c'], ['v', 'i', 'm', 'c', 'u']),
  (['v', 'i', 'd'], ['v', 'i', 'n', 'd', 'u']),
  (['v', 'i', 'd', 'n'], ['v', 'i', 'd', 'n', 'i']),
  (['v', 'i', 'd', 'r'], ['v', 'i', 'd', 'r', 'u']),
  (['v', 'i', 'f'], ['v', 'i', 'f', 'n', 'e']),
  (['v', 'i', 'f', 'n'], ['v', 'i', 'f', 'n', 'e']),
  (['v', 'i', 'j'], ['v', 'i', 'n', 'j', 'i']),
  (['v', 'i', 'k'], ['v', 'i', 'k', 'n', 'u']),
  (['v', 'i', 'k', 'm'], ['v', 'i', 'k', 'm', 'i']),
  (['v', 'i', 'k', 'n'], ['v', 'i', 'k', 'n', 'u']),
  (['v', 'i', 'l'], ['v', 'l', 'i', 'l', 'e']),
  (['v', 'i', 'm'], ['v', 'i', 'k', 'm', 'i']),
  (['v', 'i', 'm', 'c'], ['v', 'i', 'm', 'c', 'u']),
  (['v', 'i', 'n'], ['j', 'v', 'i', 'n', 'u']),
  (['v', 'i', 'n', 'd'], ['v', 'i', 'n', 'd', 'u']),
  (['v', 'i', 'n', 'j'], ['v', 'i', 'n', 'j', 'i']),
  (['v', 'i', 'p'], ['v', 'i', 'p', 's', 'i']),
  (['v', 'i', 'p', 's'], ['v', 'i', 'p', 's', 'i']),
  (['v', 'i', 'r'], ['v', 'i', 'd', 'r', 'u']),
  (['v', 'i', 'r', 'n'], ['v', 'i', 'r', 'n', 'u']),
  (['v', 'i', 's'], ['v', 'i', 's', 'k', 'a']),
  (['v', 'i', 's', 'k'], ['v', 'i', 's', 'k', 'a']),
  (['v', 'i', 't'], ['v', 'i', 't', 'c', 'i']),
  (['v', 'i', 't', 'c'], ['v', 'i', 't', 'c', 'i']),
  (['v', 'i', 't', 'k'], ['v', 'i', 't', 'k', 'e']),
  (['v', 'i', 't', 'n'], ['v', 'i', 't', 'n', 'o']),
  (['v', 'i', 'z'], ['v', 'i']),
  (['v', 'l', 'a'], ['v', 'a', 'l', 's', 'i']),
  (['v', 'l', 'a', 'g'], ['v', 'l', 'a', 'g', 'i']),
  (['v', 'l', 'e'], ['z', 'i', 'v', 'l', 'e']),
  (['v', 'l', 'i'], ['v', 'l', 'i', 'p', 'a']),
  (['v', 'l', 'i', 'l'], ['v', 'l', 'i', 'l', 'e']),
  (['v', 'l', 'i', 'n'], ['v', 'l', 'i', 'n', 'a']),
  (['v', 'l', 'i', 'p'], ['v', 'l', 'i', 'p', 'a']),
  (['v', 'o', '\'', 'a'], ['v', 'o', 'k', 's', 'a']),
  (['v', 'o', 'f', 'l'], ['v', 'o', 'f', 'l', 'i']),
  (['v', 'o', 'i'], ['v', 'o', 'f', 'l', 'i']),
  (['v', 'o', 'k'], ['v', 'o', 'k', 's', 'a']),
  (['v', 'o', 'k', 's'], ['v', 'o', 'k', 's', 'a']),
  (['v', 'o', 'l'], ['v', 'o', 'f', 'l', 'i']),
  (['v', 'o', 'n'], ['v', 'o']),
  (['v', 'o', 'r'], ['v', 'o', 'r', 'm', 'e']),
  (['v', 'o', 'r', 'm'], ['v', 'o', 'r', 'm', 'e']),
  (['v', 'r', 'a'], ['v', 'r', 'a', 'g', 'a']),
  (['v', 'r', 'a', 'g'], ['v', 'r', 'a', 'g', 'a']),
  (['v', 'r', 'e'], ['v', 'r', 'e', 't', 'a']),
  (['v', 'r', 'e', 'j'], ['v', 'r', 'e', 'j', 'i']),
  (['v', 'r', 'e', 't'], ['v', 'r', 'e', 't', 'a']),
  (['v', 'r', 'i'], ['v', 'i', 'r', 'n', 'u']),
  (['v', 'r', 'i', 'c'], ['v', 'r', 'i', 'c', 'i']),
  (['v', 'r', 'o'], ['v', 'o', 'r', 'm', 'e']),
  (['v', 'r', 'u'], ['s', 'a', 'v', 'r', 'u']),
  (['v', 'r', 'u', 'd'], ['v', 'r', 'u', 'd', 'e']),
  (['v', 'r', 'u', 's'], ['v', 'r', 'u', 's', 'i']),
  (['v', 'u', '\'', 'e'], ['v', 'r', 'u', 'd', 'e']),
  (['v', 'u', '\'', 'i'], ['v', 'r', 'u', 's', 'i']),
  (['v', 'u', '\'', 'o'], ['v', 'u', 'k', 'r', 'o']),
  (['v', 'u', 'd'], ['v', 'r', 'u', 'd', 'e']),
  (['v', 'u', 'k', 'r'], ['v', 'u', 'k', 'r', 'o']),
  (['v', 'u', 'r'], ['v', 'u', 'k', 'r', 'o']),
  (['v', 'u', 's'], ['v', 'r', 'u', 's', 'i']),
  (['v', 'u', 'z'], ['v', 'u']),
  (['x', 'a', '\'', 'a'], ['x', 'a', 't', 'r', 'a']),
  (['x', 'a', '\'', 'e'], ['x', 'a', 'n', 'c', 'e']),
  (['x', 'a', '\'', 'i'], ['x', 'a', 'r', 'c', 'i']),
  (['x', 'a', '\'', 'o'], ['x', 'a', 'm', 'p', 'o']),
  (['x', 'a', '\'', 'u'], ['x', 'a', 'b', 'j', 'u']),
  (['x', 'a', 'b'], ['x', 'a', 'd', 'b', 'a']),
  (['x', 'a', 'b', 'j'], ['x', 'a', 'b', 'j', 'u']),
  (['x', 'a', 'c'], ['x', 'a', 'r', 'c', 'i']),
  (['x', 'a', 'd'], ['x', 'a', 'd', 'n', 'i']),
  (['x', 'a', 'd', 'b'], ['x', 'a', 'd', 'b', 'a']),
  (['x', 'a', 'd', 'n'], ['x', 'a', 'd', 'n', 'i']),
  (['x', 'a', 'g'], ['x', 'a', 'm', 'g', 'u']),
  (['x', 'a', 'g', 'j'], ['x', 'a', 'g', 'j', 'i']),
  (['x', 'a', 'g', 'r'], ['x', 'a', 'g', 'r', 'i']),
  (['x', 'a', 'i'], ['x', 'r', 'a', 'n', 'i']),
  (['x', 'a', 'j'], ['x', 'a', 'r', 'j', 'u']),
  (['x', 'a', 'j', 'm'], ['x', 'a', 'j', 'm', 'i']),
  (['x', 'a', 'k'], ['x', 'a', 'k', 's', 'u']),
  (['x', 'a', 'k', 's'], ['x', 'a', 'k', 's', 'u']),
  (['x', 'a', 'l'], ['x', 'a', 'l', 'k', 'a']),
  (['x', 'a', 'l', 'b'], ['x', 'a', 'l', 'b', 'o']),
  (['x', 'a', 'l', 'k'], ['x', 'a', 'l', 'k', 'a']),
  (['x', 'a', 'l', 'n'], ['x', 'a', 'l', 'n', 'i']),
  (['x', 'a', 'm'], ['x', 'a', 'j', 'm', 'i']),
  (['x', 'a', 'm', 'g'], ['x', 'a', 'm', 'g', 'u']),
  (['x', 'a', 'm', 'p'], ['x', 'a', 'm', 'p', 'o']),
  (['x', 'a', 'm', 's'], ['x', 'a', 'm', 's', 'i']),
  (['x', 'a', 'n'], ['x', 'a', 'n', 'c', 'e']),
  (['x', 'a', 'n', 'c'], ['x', 'a', 'n', 'c', 'e']),
  (['x', 'a', 'n', 'k'], ['x', 'a', 'n', 'k', 'a']),
  (['x', 'a', 'n', 'r'], ['x', 'a', 'n', 'r', 'i'])]

/-- `canonluj.inc` as made by `canonluj.pl:8-27` from `reduced_gismu`: rafsi and word, sorted by rafsi, entries 2700-2799. -/
def r2g27 : List (Word × Word) := [
  (['x', 'a', 'n', 't'], ['x', 'a', 'n', 't', 'o']),
  (['x', 'a', 'p'], ['x', 'a', 'm', 'p', 'o']),
  (['x', 'a', 'r'], ['x', 'a', 'n', 'r', 'i']),
  (['x', 'a', 'r', 'c'], ['x', 'a', 'r', 'c', 'i']),
  (['x', 'a', 'r', 'j'], ['x', 'a', 'r', 'j', 'u']),
  (['x', 'a', 'r', 'n'], ['x', 'a', 'r', 'n', 'u']),
  (['x', 'a', 's'], ['x', 'a', 'm', 's', 'i']),
  (['x', 'a', 's', 'l'], ['x', 'a', 's', 'l', 'i']),
  (['x', 'a', 's', 'n'], ['x', 'a', 's', 'n', 'e']),
  (['x', 'a', 't'], ['x', 'a', 't', 's', 'i']),
  (['x', 'a', 't', 'r'], ['x', 'a', 't', 'r', 'a']),
  (['x', 'a', 't', 's'], ['x', 'a', 't', 's', 'i']),
  (['x', 'a', 'u'], ['x', 'a', 'm', 'g', 'u']),
  (['x', 'a', 'v'], ['x', 'a']),
  (['x', 'a', 'z'], ['x', 'a', 'z', 'd', 'o']),
  (['x', 'a', 'z', 'd'], ['x', 'a', 'z', 'd', 'o']),
  (['x', 'e', '\'', 'a'], ['x', 'e', 'd', 'j', 'a']),
  (['x', 'e', '\'', 'i'], ['x', 'e', 'k', 'r', 'i']),
  (['x', 'e', '\'', 'o'], ['x', 'e', 'n', 'd', 'o']),
  (['x', 'e', '\'', 'u'], ['x', 'e', 'n', 'r', 'u']),
  (['x', 'e', 'b'], ['x', 'e', 'b', 'r', 'o']),
  (['x', 'e', 'b', 'n'], ['x', 'e', 'b', 'n', 'i']),
  (['x', 'e', 'b', 'r'], ['x', 'e', 'b', 'r', 'o']),
  (['x', 'e', 'c', 't'], ['x', 'e', 'c', 't', 'o']),
  (['x', 'e', 'd'], ['x', 'e', 'n', 'd', 'o']),
  (['x', 'e', 'd', 'j'], ['x', 'e', 'd', 'j', 'a']),
  (['x', 'e', 'i'], ['x', 'e', 'b', 'n', 'i']),
  (['x', 'e', 'j'], ['x', 'e', 'd', 'j', 'a']),
  (['x', 'e', 'k'], ['x', 'e', 'k', 'r', 'i']),
  (['x', 'e', 'k', 'r'], ['x', 'e', 'k', 'r', 'i']),
  (['x', 'e', 'l'], ['x', 'e']),
  (['x', 'e', 'l', 's'], ['x', 'e', 'l', 's', 'o']),
  (['x', 'e', 'n'], ['x', 'e', 'b', 'n', 'i']),
  (['x', 'e', 'n', 'd'], ['x', 'e', 'n', 'd', 'o']),
  (['x', 'e', 'n', 'r'], ['x', 'e', 'n', 'r', 'u']),
  (['x', 'e', 'r'], ['x', 'e', 'n', 'r', 'u']),
  (['x', 'e', 's'], ['x', 'e', 'l', 's', 'o']),
  (['x', 'e', 't'], ['x', 'e', 'c', 't', 'o']),
  (['x', 'e', 'x'], ['x', 'e', 'x', 's', 'o']),
  (['x', 'e', 'x', 's'], ['x', 'e', 'x', 's', 'o']),
  (['x', 'i', '\'', 'a'], ['x', 'i', 'r', 'm', 'a']),
  (['x', 'i', '\'', 'o'], ['x', 'r', 'i', 's', 'o']),
  (['x', 'i', '\'', 'u'], ['x', 'i', 's', 'l', 'u']),
  (['x', 'i', 'l'], ['x', 'i', 's', 'l', 'u']),
  (['x', 'i', 'm'], ['x', 'i', 'n', 'm', 'o']),
  (['x', 'i', 'n'], ['x', 'i', 'n', 'd', 'o']),
  (['x', 'i', 'n', 'd'], ['x', 'i', 'n', 'd', 'o']),
  (['x', 'i', 'n', 'm'], ['x', 'i', 'n', 'm', 'o']),
  (['x', 'i', 'p'], ['x', 'i', 's', 'p', 'o']),
  (['x', 'i', 'r'], ['x', 'i', 'r', 'm', 'a']),
  (['x', 'i', 'r', 'm'], ['x', 'i', 'r', 'm', 'a']),
  (['x', 'i', 's'], ['x', 'r', 'i', 's', 'o']),
  (['x', 'i', 's', 'l'], ['x', 'i', 's', 'l', 'u']),
  (['x', 'i', 's', 'p'], ['x', 'i', 's', 'p', 'o']),
  (['x', 'l', 'a'], ['x', 'l', 'a', 'l', 'i']),
  (['x', 'l', 'a', 'l'], ['x', 'l', 'a', 'l', 'i']),
  (['x', 'l', 'e'], ['n', 'a', 'x', 'l', 'e']),
  (['x', 'l', 'i'], ['n', 'i', 'x', 'l', 'i']),
  (['x', 'l', 'u'], ['x', 'l', 'u', 'r', 'a']),
  (['x', 'l', 'u', 'r'], ['x', 'l', 'u', 'r', 'a']),
  (['x', 'o', 'i'], ['x', 'o', 't', 'l', 'i']),
  (['x', 'o', 'l'], ['x', 'o', 't', 'l', 'i']),
  (['x', 'o', 't', 'l'], ['x', 'o', 't', 'l', 'i']),
  (['x', 'r', 'a'], ['p', 'i', 'x', 'r', 'a']),
  (['x', 'r', 'a', 'b'], ['x', 'r', 'a', 'b', 'o']),
  (['x', 'r', 'a', 'n'], ['x', 'r', 'a', 'n', 'i']),
  (['x', 'r', 'e'], ['m', 'i', 'x', 'r', 'e']),
  (['x', 'r', 'i'], ['m', 'a', 'x', 'r', 'i']),
  (['x', 'r', 'i', 's'], ['x', 'r', 'i', 's', 'o']),
  (['x', 'r', 'u'], ['x', 'r', 'u', 't', 'i']),
  (['x', 'r', 'u', 'b'], ['x', 'r', 'u', 'b', 'a']),
  (['x', 'r', 'u', 'k'], ['x', 'r', 'u', 'k', 'i']),
  (['x', 'r', 'u', 'l'], ['x', 'r', 'u', 'l', 'a']),
  (['x', 'r', 'u', 't'], ['x', 'r', 'u', 't', 'i']),
  (['x', 'u', '\'', 'a'], ['x', 'u', 's', 'r', 'a']),
  (['x', 'u', '\'', 'e'], ['x', 'u', 'n', 'r', 'e']),
  (['x', 'u', '\'', 'i'], ['x', 'u', 'k', 'm', 'i']),
  (['x', 'u', '\'', 'o'], ['x', 'u', 'r', 'd', 'o']),
  (['x', 'u', 'b'], ['x', 'r', 'u', 'b', 'a']),
  (['x', 'u', 'k'], ['x', 'r', 'u', 'k', 'i']),
  (['x', 'u', 'k', 'm'], ['x', 'u', 'k', 'm', 'i']),
  (['x', 'u', 'l'], ['x', 'u', 't', 'l', 'a']),
  (['x', 'u', 'm'], ['x', 'u', 'k', 'm', 'i']),
  (['x', 'u', 'n'], ['x', 'u', 'n', 'r', 'e']),
  (['x', 'u', 'n', 'r'], ['x', 'u', 'n', 'r', 'e']),
  (['x', 'u', 'r'], ['x', 'u', 'r', 'd', 'o']),
  (['x', 'u', 'r', 'd'], ['x', 'u', 'r', 'd', 'o']),
  (['x', 'u', 's'], ['x', 'u', 's', 'r', 'a']),
  (['x', 'u', 's', 'r'], ['x', 'u', 's', 'r', 'a']),
  (['x', 'u', 't', 'l'], ['x', 'u', 't', 'l', 'a']),
  (['z', 'a', '\'', 'a'], ['z', 'a', 'b', 'n', 'a']),
  (['z', 'a', '\'', 'i'], ['z', 'a', 's', 't', 'i']),
  (['z', 'a', '\'', 'o'], ['z', 'a', '\'', 'o']),
  (['z', 'a', '\'', 'u'], ['z', 'a', 'r', 'g', 'u']),
  (['z', 'a', 'b', 'n'], ['z', 'a', 'b', 'n', 'a']),
  (['z', 'a', 'c'], ['z', 'a', 'r', 'c', 'i']),
  (['z', 'a', 'g'], ['z', 'a', 'r', 'g', 'u']),
  (['z', 'a', 'i'], ['z', 'a', 'r', 'c', 'i']),
  (['z', 'a', 'j'], ['z', 'a', 'j', 'b', 'a']),
  (['z', 'a', 'j', 'b'], ['z', 'a', 'j', 'b', 'a'])]

/-- `canonluj.inc` as made by `canonluj.pl:8-27` from `reduced_gismu`: rafsi and word, sorted by rafsi, entries 2800-2883. -/
def r2g28 : List (Word × Word) := [
  (['z', 'a', 'l'], ['z', 'a', 'l', 'v', 'i']),
  (['z', 'a', 'l', 'v'], ['z', 'a', 'l', 'v', 'i']),
  (['z', 'a', 'n'], ['z', 'a', 'b', 'n', 'a']),
  (['z', 'a', 'n', 'r'], ['z', 'a', 'n', 'r', 'u']),
  (['z', 'a', 'r'], ['z', 'a', 'n', 'r', 'u']),
  (['z', 'a', 'r', 'c'], ['z', 'a', 'r', 'c', 'i']),
  (['z', 'a', 'r', 'g'], ['z', 'a', 'r', 'g', 'u']),
  (['z', 'a', 's'], ['z', 'a', 's', 'n', 'i']),
  (['z', 'a', 's', 'n'], ['z', 'a', 's', 'n', 'i']),
  (['z', 'a', 's', 't'], ['z', 'a', 's', 't', 'i']),
  (['z', 'a', 't'], ['z', 'a', 's', 't', 'i']),
  (['z', 'a', 'u'], ['z', 'a', 'n', 'r', 'u']),
  (['z', 'a', 'z'], ['z', 'a', '\'', 'i']),
  (['z', 'b', 'a'], ['z', 'b', 'a', 's', 'u']),
  (['z', 'b', 'a', 'b'], ['z', 'b', 'a', 'b', 'u']),
  (['z', 'b', 'a', 'n'], ['z', 'b', 'a', 'n', 'i']),
  (['z', 'b', 'a', 's'], ['z', 'b', 'a', 's', 'u']),
  (['z', 'b', 'e'], ['z', 'b', 'e', 'p', 'i']),
  (['z', 'b', 'e', 'p'], ['z', 'b', 'e', 'p', 'i']),
  (['z', 'b', 'i'], ['n', 'a', 'z', 'b', 'i']),
  (['z', 'd', 'a'], ['z', 'd', 'a', 'n', 'i']),
  (['z', 'd', 'a', 'n'], ['z', 'd', 'a', 'n', 'i']),
  (['z', 'd', 'i'], ['z', 'd', 'i', 'l', 'e']),
  (['z', 'd', 'i', 'l'], ['z', 'd', 'i', 'l', 'e']),
  (['z', 'd', 'o'], ['x', 'a', 'z', 'd', 'o']),
  (['z', 'e', '\'', 'a'], ['z', 'e', 'n', 'b', 'a']),
  (['z', 'e', '\'', 'e'], ['z', 'e', '\'', 'e']),
  (['z', 'e', '\'', 'o'], ['z', 'e', '\'', 'o']),
  (['z', 'e', 'i'], ['z', 'e', 'k', 'r', 'i']),
  (['z', 'e', 'k', 'r'], ['z', 'e', 'k', 'r', 'i']),
  (['z', 'e', 'l'], ['z', 'e']),
  (['z', 'e', 'n'], ['z', 'e', 'n', 'b', 'a']),
  (['z', 'e', 'n', 'b'], ['z', 'e', 'n', 'b', 'a']),
  (['z', 'e', 'p'], ['z', 'e', 'p', 't', 'i']),
  (['z', 'e', 'p', 't'], ['z', 'e', 'p', 't', 'i']),
  (['z', 'e', 'r'], ['z', 'e', 'k', 'r', 'i']),
  (['z', 'e', 't'], ['z', 'e', 't', 'r', 'o']),
  (['z', 'e', 't', 'r'], ['z', 'e', 't', 'r', 'o']),
  (['z', 'e', 'v'], ['z', 'e', '\'', 'o']),
  (['z', 'g', 'a'], ['z', 'g', 'a', 'n', 'a']),
  (['z', 'g', 'a', 'n'], ['z', 'g', 'a', 'n', 'a']),
  (['z', 'g', 'i'], ['z', 'g', 'i', 'k', 'e']),
  (['z', 'g', 'i', 'k'], ['z', 'g', 'i', 'k', 'e']),
  (['z', 'g', 'u'], ['r', 'o', 'z', 'g', 'u']),
  (['z', 'i', '\'', 'e'], ['z', 'i', 'f', 'r', 'e']),
  (['z', 'i', '\'', 'i'], ['z', 'i', 'n', 'k', 'i']),
  (['z', 'i', '\'', 'o'], ['d', 'z', 'i', 'p', 'o']),
  (['z', 'i', '\'', 'u'], ['z', 'i', 'r', 'p', 'u']),
  (['z', 'i', 'f'], ['z', 'i', 'f', 'r', 'e']),
  (['z', 'i', 'f', 'r'], ['z', 'i', 'f', 'r', 'e']),
  (['z', 'i', 'l'], ['z', 'i', '\'', 'o']),
  (['z', 'i', 'n'], ['z', 'i', 'n', 'k', 'i']),
  (['z', 'i', 'n', 'k'], ['z', 'i', 'n', 'k', 'i']),
  (['z', 'i', 'p'], ['d', 'z', 'i', 'p', 'o']),
  (['z', 'i', 'r'], ['z', 'i', 'r', 'p', 'u']),
  (['z', 'i', 'r', 'p'], ['z', 'i', 'r', 'p', 'u']),
  (['z', 'i', 'v'], ['z', 'i', 'v', 'l', 'e']),
  (['z', 'i', 'v', 'l'], ['z', 'i', 'v', 'l', 'e']),
  (['z', 'm', 'a'], ['z', 'm', 'a', 'd', 'u']),
  (['z', 'm', 'a', 'd'], ['z', 'm', 'a', 'd', 'u']),
  (['z', 'm', 'e'], ['g', 'u', 'z', 'm', 'e']),
  (['z', 'm', 'i'], ['z', 'm', 'i', 'k', 'u']),
  (['z', 'm', 'i', 'k'], ['z', 'm', 'i', 'k', 'u']),
  (['z', 'm', 'u'], ['z', 'u', 'm', 'r', 'i']),
  (['z', 'o', '\'', 'a'], ['z', 'o', '\'', 'a']),
  (['z', 'o', '\'', 'i'], ['z', 'o', '\'', 'i']),
  (['z', 'o', 'n'], ['z', 'o', '\'', 'a']),
  (['z', 'o', 'r'], ['z', 'o', '\'', 'i']),
  (['z', 'u', '\'', 'e'], ['z', 'u', 'k', 't', 'e']),
  (['z', 'u', '\'', 'i'], ['z', 'u', 'n', 't', 'i']),
  (['z', 'u', 'g'], ['z', 'u', 'n', 'g', 'i']),
  (['z', 'u', 'k'], ['z', 'u', 'k', 't', 'e']),
  (['z', 'u', 'k', 't'], ['z', 'u', 'k', 't', 'e']),
  (['z', 'u', 'l'], ['z', 'u', 'n', 'l', 'e']),
  (['z', 'u', 'm'], ['z', 'u', '\'', 'o']),
  (['z', 'u', 'm', 'r'], ['z', 'u', 'm', 'r', 'i']),
  (['z', 'u', 'n'], ['z', 'u', 'n', 't', 'i']),
  (['z', 'u', 'n', 'g'], ['z', 'u', 'n', 'g', 'i']),
  (['z', 'u', 'n', 'l'], ['z', 'u', 'n', 'l', 'e']),
  (['z', 'u', 'n', 't'], ['z', 'u', 'n', 't', 'i']),
  (['z', 'u', 't'], ['z', 'u', 't', 's', 'e']),
  (['z', 'u', 't', 's'], ['z', 'u', 't', 's', 'e']),
  (['z', 'v', 'a'], ['z', 'v', 'a', 't', 'i']),
  (['z', 'v', 'a', 't'], ['z', 'v', 'a', 't', 'i'])]

/-- `canonluj.inc` as made by `canonluj.pl:8-27` from `reduced_gismu`: rafsi and word, sorted by rafsi. -/
def r2g : List (Word × Word) :=
  r2g0 ++ r2g1 ++ r2g2 ++ r2g3 ++ r2g4 ++ r2g5 ++ r2g6 ++ r2g7 ++ r2g8 ++ r2g9 ++ r2g10 ++
  r2g11 ++ r2g12 ++ r2g13 ++ r2g14 ++ r2g15 ++ r2g16 ++ r2g17 ++ r2g18 ++ r2g19 ++ r2g20 ++
  r2g21 ++ r2g22 ++ r2g23 ++ r2g24 ++ r2g25 ++ r2g26 ++ r2g27 ++ r2g28

end Jbo.Lujvo
