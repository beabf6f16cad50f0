import Verif.Types

/-!
# Run-time recursion table

Literal data transcribed by a script from `skel/simint/recur_lookup.c` (identical data in
`skel/simint/ostei/recur_lookup.c`).  One row is
`[i,j,k, dir, xm1,xm2,xp1, ym1,ym2,yp1, zm1,zm2,zp1]`; one list per angular momentum.
-/

namespace Simint.Tables

local notation "N" => (-1 : ℤ)

def recur0 : List (List ℤ) := [
  [0,0,0,N,N,N,0,N,N,1,N,N,2]]

def recur1 : List (List ℤ) := [
  [1,0,0,0,0,N,0,N,N,1,N,N,2],
  [0,1,0,1,N,N,1,0,N,3,N,N,4],
  [0,0,1,2,N,N,2,N,N,4,0,N,5]]

def recur2 : List (List ℤ) := [
  [2,0,0,0,0,0,0,N,N,1,N,N,2],
  [1,1,0,1,1,N,1,0,N,3,N,N,4],
  [1,0,1,2,2,N,2,N,N,4,0,N,5],
  [0,2,0,1,N,N,3,1,0,6,N,N,7],
  [0,1,1,2,N,N,4,2,N,7,1,N,8],
  [0,0,2,2,N,N,5,N,N,8,2,0,9]]

def recur3 : List (List ℤ) := [
  [3,0,0,0,0,0,0,N,N,1,N,N,2],
  [2,1,0,1,1,1,1,0,N,3,N,N,4],
  [2,0,1,2,2,2,2,N,N,4,0,N,5],
  [1,2,0,0,3,N,3,1,0,6,N,N,7],
  [1,1,1,2,4,N,4,2,N,7,1,N,8],
  [1,0,2,0,5,N,5,N,N,8,2,0,9],
  [0,3,0,1,N,N,6,3,1,10,N,N,11],
  [0,2,1,2,N,N,7,4,2,11,3,N,12],
  [0,1,2,1,N,N,8,5,N,12,4,1,13],
  [0,0,3,2,N,N,9,N,N,13,5,2,14]]

def recur4 : List (List ℤ) := [
  [4,0,0,0,0,0,0,N,N,1,N,N,2],
  [3,1,0,1,1,1,1,0,N,3,N,N,4],
  [3,0,1,2,2,2,2,N,N,4,0,N,5],
  [2,2,0,1,3,3,3,1,0,6,N,N,7],
  [2,1,1,2,4,4,4,2,N,7,1,N,8],
  [2,0,2,2,5,5,5,N,N,8,2,0,9],
  [1,3,0,0,6,N,6,3,1,10,N,N,11],
  [1,2,1,2,7,N,7,4,2,11,3,N,12],
  [1,1,2,1,8,N,8,5,N,12,4,1,13],
  [1,0,3,0,9,N,9,N,N,13,5,2,14],
  [0,4,0,1,N,N,10,6,3,15,N,N,16],
  [0,3,1,2,N,N,11,7,4,16,6,N,17],
  [0,2,2,2,N,N,12,8,5,17,7,3,18],
  [0,1,3,1,N,N,13,9,N,18,8,4,19],
  [0,0,4,2,N,N,14,N,N,19,9,5,20]]

def recur5 : List (List ℤ) := [
  [5,0,0,0,0,0,0,N,N,1,N,N,2],
  [4,1,0,1,1,1,1,0,N,3,N,N,4],
  [4,0,1,2,2,2,2,N,N,4,0,N,5],
  [3,2,0,1,3,3,3,1,0,6,N,N,7],
  [3,1,1,2,4,4,4,2,N,7,1,N,8],
  [3,0,2,2,5,5,5,N,N,8,2,0,9],
  [2,3,0,0,6,6,6,3,1,10,N,N,11],
  [2,2,1,2,7,7,7,4,2,11,3,N,12],
  [2,1,2,1,8,8,8,5,N,12,4,1,13],
  [2,0,3,0,9,9,9,N,N,13,5,2,14],
  [1,4,0,0,10,N,10,6,3,15,N,N,16],
  [1,3,1,2,11,N,11,7,4,16,6,N,17],
  [1,2,2,0,12,N,12,8,5,17,7,3,18],
  [1,1,3,1,13,N,13,9,N,18,8,4,19],
  [1,0,4,0,14,N,14,N,N,19,9,5,20],
  [0,5,0,1,N,N,15,10,6,21,N,N,22],
  [0,4,1,2,N,N,16,11,7,22,10,N,23],
  [0,3,2,2,N,N,17,12,8,23,11,6,24],
  [0,2,3,1,N,N,18,13,9,24,12,7,25],
  [0,1,4,1,N,N,19,14,N,25,13,8,26],
  [0,0,5,2,N,N,20,N,N,26,14,9,27]]

def recur6 : List (List ℤ) := [
  [6,0,0,0,0,0,0,N,N,1,N,N,2],
  [5,1,0,1,1,1,1,0,N,3,N,N,4],
  [5,0,1,2,2,2,2,N,N,4,0,N,5],
  [4,2,0,1,3,3,3,1,0,6,N,N,7],
  [4,1,1,2,4,4,4,2,N,7,1,N,8],
  [4,0,2,2,5,5,5,N,N,8,2,0,9],
  [3,3,0,1,6,6,6,3,1,10,N,N,11],
  [3,2,1,2,7,7,7,4,2,11,3,N,12],
  [3,1,2,1,8,8,8,5,N,12,4,1,13],
  [3,0,3,2,9,9,9,N,N,13,5,2,14],
  [2,4,0,0,10,10,10,6,3,15,N,N,16],
  [2,3,1,2,11,11,11,7,4,16,6,N,17],
  [2,2,2,2,12,12,12,8,5,17,7,3,18],
  [2,1,3,1,13,13,13,9,N,18,8,4,19],
  [2,0,4,0,14,14,14,N,N,19,9,5,20],
  [1,5,0,0,15,N,15,10,6,21,N,N,22],
  [1,4,1,2,16,N,16,11,7,22,10,N,23],
  [1,3,2,0,17,N,17,12,8,23,11,6,24],
  [1,2,3,0,18,N,18,13,9,24,12,7,25],
  [1,1,4,1,19,N,19,14,N,25,13,8,26],
  [1,0,5,0,20,N,20,N,N,26,14,9,27],
  [0,6,0,1,N,N,21,15,10,28,N,N,29],
  [0,5,1,2,N,N,22,16,11,29,15,N,30],
  [0,4,2,2,N,N,23,17,12,30,16,10,31],
  [0,3,3,2,N,N,24,18,13,31,17,11,32],
  [0,2,4,1,N,N,25,19,14,32,18,12,33],
  [0,1,5,1,N,N,26,20,N,33,19,13,34],
  [0,0,6,2,N,N,27,N,N,34,20,14,35]]

def recur7 : List (List ℤ) := [
  [7,0,0,0,0,0,0,N,N,1,N,N,2],
  [6,1,0,1,1,1,1,0,N,3,N,N,4],
  [6,0,1,2,2,2,2,N,N,4,0,N,5],
  [5,2,0,1,3,3,3,1,0,6,N,N,7],
  [5,1,1,2,4,4,4,2,N,7,1,N,8],
  [5,0,2,2,5,5,5,N,N,8,2,0,9],
  [4,3,0,1,6,6,6,3,1,10,N,N,11],
  [4,2,1,2,7,7,7,4,2,11,3,N,12],
  [4,1,2,1,8,8,8,5,N,12,4,1,13],
  [4,0,3,2,9,9,9,N,N,13,5,2,14],
  [3,4,0,0,10,10,10,6,3,15,N,N,16],
  [3,3,1,2,11,11,11,7,4,16,6,N,17],
  [3,2,2,2,12,12,12,8,5,17,7,3,18],
  [3,1,3,1,13,13,13,9,N,18,8,4,19],
  [3,0,4,0,14,14,14,N,N,19,9,5,20],
  [2,5,0,0,15,15,15,10,6,21,N,N,22],
  [2,4,1,2,16,16,16,11,7,22,10,N,23],
  [2,3,2,2,17,17,17,12,8,23,11,6,24],
  [2,2,3,1,18,18,18,13,9,24,12,7,25],
  [2,1,4,1,19,19,19,14,N,25,13,8,26],
  [2,0,5,0,20,20,20,N,N,26,14,9,27],
  [1,6,0,0,21,N,21,15,10,28,N,N,29],
  [1,5,1,2,22,N,22,16,11,29,15,N,30],
  [1,4,2,0,23,N,23,17,12,30,16,10,31],
  [1,3,3,0,24,N,24,18,13,31,17,11,32],
  [1,2,4,0,25,N,25,19,14,32,18,12,33],
  [1,1,5,1,26,N,26,20,N,33,19,13,34],
  [1,0,6,0,27,N,27,N,N,34,20,14,35],
  [0,7,0,1,N,N,28,21,15,36,N,N,37],
  [0,6,1,2,N,N,29,22,16,37,21,N,38],
  [0,5,2,2,N,N,30,23,17,38,22,15,39],
  [0,4,3,2,N,N,31,24,18,39,23,16,40],
  [0,3,4,1,N,N,32,25,19,40,24,17,41],
  [0,2,5,1,N,N,33,26,20,41,25,18,42],
  [0,1,6,1,N,N,34,27,N,42,26,19,43],
  [0,0,7,2,N,N,35,N,N,43,27,20,44]]

def recur8 : List (List ℤ) := [
  [8,0,0,0,0,0,0,N,N,1,N,N,2],
  [7,1,0,1,1,1,1,0,N,3,N,N,4],
  [7,0,1,2,2,2,2,N,N,4,0,N,5],
  [6,2,0,1,3,3,3,1,0,6,N,N,7],
  [6,1,1,2,4,4,4,2,N,7,1,N,8],
  [6,0,2,2,5,5,5,N,N,8,2,0,9],
  [5,3,0,1,6,6,6,3,1,10,N,N,11],
  [5,2,1,2,7,7,7,4,2,11,3,N,12],
  [5,1,2,1,8,8,8,5,N,12,4,1,13],
  [5,0,3,2,9,9,9,N,N,13,5,2,14],
  [4,4,0,1,10,10,10,6,3,15,N,N,16],
  [4,3,1,2,11,11,11,7,4,16,6,N,17],
  [4,2,2,2,12,12,12,8,5,17,7,3,18],
  [4,1,3,1,13,13,13,9,N,18,8,4,19],
  [4,0,4,2,14,14,14,N,N,19,9,5,20],
  [3,5,0,0,15,15,15,10,6,21,N,N,22],
  [3,4,1,2,16,16,16,11,7,22,10,N,23],
  [3,3,2,2,17,17,17,12,8,23,11,6,24],
  [3,2,3,1,18,18,18,13,9,24,12,7,25],
  [3,1,4,1,19,19,19,14,N,25,13,8,26],
  [3,0,5,0,20,20,20,N,N,26,14,9,27],
  [2,6,0,0,21,21,21,15,10,28,N,N,29],
  [2,5,1,2,22,22,22,16,11,29,15,N,30],
  [2,4,2,2,23,23,23,17,12,30,16,10,31],
  [2,3,3,0,24,24,24,18,13,31,17,11,32],
  [2,2,4,1,25,25,25,19,14,32,18,12,33],
  [2,1,5,1,26,26,26,20,N,33,19,13,34],
  [2,0,6,0,27,27,27,N,N,34,20,14,35],
  [1,7,0,0,28,N,28,21,15,36,N,N,37],
  [1,6,1,2,29,N,29,22,16,37,21,N,38],
  [1,5,2,0,30,N,30,23,17,38,22,15,39],
  [1,4,3,0,31,N,31,24,18,39,23,16,40],
  [1,3,4,0,32,N,32,25,19,40,24,17,41],
  [1,2,5,0,33,N,33,26,20,41,25,18,42],
  [1,1,6,1,34,N,34,27,N,42,26,19,43],
  [1,0,7,0,35,N,35,N,N,43,27,20,44],
  [0,8,0,1,N,N,36,28,21,45,N,N,46],
  [0,7,1,2,N,N,37,29,22,46,28,N,47],
  [0,6,2,2,N,N,38,30,23,47,29,21,48],
  [0,5,3,2,N,N,39,31,24,48,30,22,49],
  [0,4,4,2,N,N,40,32,25,49,31,23,50],
  [0,3,5,1,N,N,41,33,26,50,32,24,51],
  [0,2,6,1,N,N,42,34,27,51,33,25,52],
  [0,1,7,1,N,N,43,35,N,52,34,26,53],
  [0,0,8,2,N,N,44,N,N,53,35,27,54]]

def recur9 : List (List ℤ) := [
  [9,0,0,0,0,0,0,N,N,1,N,N,2],
  [8,1,0,1,1,1,1,0,N,3,N,N,4],
  [8,0,1,2,2,2,2,N,N,4,0,N,5],
  [7,2,0,1,3,3,3,1,0,6,N,N,7],
  [7,1,1,2,4,4,4,2,N,7,1,N,8],
  [7,0,2,2,5,5,5,N,N,8,2,0,9],
  [6,3,0,1,6,6,6,3,1,10,N,N,11],
  [6,2,1,2,7,7,7,4,2,11,3,N,12],
  [6,1,2,1,8,8,8,5,N,12,4,1,13],
  [6,0,3,2,9,9,9,N,N,13,5,2,14],
  [5,4,0,1,10,10,10,6,3,15,N,N,16],
  [5,3,1,2,11,11,11,7,4,16,6,N,17],
  [5,2,2,2,12,12,12,8,5,17,7,3,18],
  [5,1,3,1,13,13,13,9,N,18,8,4,19],
  [5,0,4,2,14,14,14,N,N,19,9,5,20],
  [4,5,0,0,15,15,15,10,6,21,N,N,22],
  [4,4,1,2,16,16,16,11,7,22,10,N,23],
  [4,3,2,2,17,17,17,12,8,23,11,6,24],
  [4,2,3,1,18,18,18,13,9,24,12,7,25],
  [4,1,4,1,19,19,19,14,N,25,13,8,26],
  [4,0,5,0,20,20,20,N,N,26,14,9,27],
  [3,6,0,0,21,21,21,15,10,28,N,N,29],
  [3,5,1,2,22,22,22,16,11,29,15,N,30],
  [3,4,2,2,23,23,23,17,12,30,16,10,31],
  [3,3,3,2,24,24,24,18,13,31,17,11,32],
  [3,2,4,1,25,25,25,19,14,32,18,12,33],
  [3,1,5,1,26,26,26,20,N,33,19,13,34],
  [3,0,6,0,27,27,27,N,N,34,20,14,35],
  [2,7,0,0,28,28,28,21,15,36,N,N,37],
  [2,6,1,2,29,29,29,22,16,37,21,N,38],
  [2,5,2,2,30,30,30,23,17,38,22,15,39],
  [2,4,3,0,31,31,31,24,18,39,23,16,40],
  [2,3,4,0,32,32,32,25,19,40,24,17,41],
  [2,2,5,1,33,33,33,26,20,41,25,18,42],
  [2,1,6,1,34,34,34,27,N,42,26,19,43],
  [2,0,7,0,35,35,35,N,N,43,27,20,44],
  [1,8,0,0,36,N,36,28,21,45,N,N,46],
  [1,7,1,2,37,N,37,29,22,46,28,N,47],
  [1,6,2,0,38,N,38,30,23,47,29,21,48],
  [1,5,3,0,39,N,39,31,24,48,30,22,49],
  [1,4,4,0,40,N,40,32,25,49,31,23,50],
  [1,3,5,0,41,N,41,33,26,50,32,24,51],
  [1,2,6,0,42,N,42,34,27,51,33,25,52],
  [1,1,7,1,43,N,43,35,N,52,34,26,53],
  [1,0,8,0,44,N,44,N,N,53,35,27,54],
  [0,9,0,1,N,N,45,36,28,55,N,N,56],
  [0,8,1,2,N,N,46,37,29,56,36,N,57],
  [0,7,2,2,N,N,47,38,30,57,37,28,58],
  [0,6,3,2,N,N,48,39,31,58,38,29,59],
  [0,5,4,2,N,N,49,40,32,59,39,30,60],
  [0,4,5,1,N,N,50,41,33,60,40,31,61],
  [0,3,6,1,N,N,51,42,34,61,41,32,62],
  [0,2,7,1,N,N,52,43,35,62,42,33,63],
  [0,1,8,1,N,N,53,44,N,63,43,34,64],
  [0,0,9,2,N,N,54,N,N,64,44,35,65]]

def recur10 : List (List ℤ) := [
  [10,0,0,0,0,0,0,N,N,1,N,N,2],
  [9,1,0,1,1,1,1,0,N,3,N,N,4],
  [9,0,1,2,2,2,2,N,N,4,0,N,5],
  [8,2,0,1,3,3,3,1,0,6,N,N,7],
  [8,1,1,2,4,4,4,2,N,7,1,N,8],
  [8,0,2,2,5,5,5,N,N,8,2,0,9],
  [7,3,0,1,6,6,6,3,1,10,N,N,11],
  [7,2,1,2,7,7,7,4,2,11,3,N,12],
  [7,1,2,1,8,8,8,5,N,12,4,1,13],
  [7,0,3,2,9,9,9,N,N,13,5,2,14],
  [6,4,0,1,10,10,10,6,3,15,N,N,16],
  [6,3,1,2,11,11,11,7,4,16,6,N,17],
  [6,2,2,2,12,12,12,8,5,17,7,3,18],
  [6,1,3,1,13,13,13,9,N,18,8,4,19],
  [6,0,4,2,14,14,14,N,N,19,9,5,20],
  [5,5,0,1,15,15,15,10,6,21,N,N,22],
  [5,4,1,2,16,16,16,11,7,22,10,N,23],
  [5,3,2,2,17,17,17,12,8,23,11,6,24],
  [5,2,3,1,18,18,18,13,9,24,12,7,25],
  [5,1,4,1,19,19,19,14,N,25,13,8,26],
  [5,0,5,2,20,20,20,N,N,26,14,9,27],
  [4,6,0,0,21,21,21,15,10,28,N,N,29],
  [4,5,1,2,22,22,22,16,11,29,15,N,30],
  [4,4,2,2,23,23,23,17,12,30,16,10,31],
  [4,3,3,2,24,24,24,18,13,31,17,11,32],
  [4,2,4,1,25,25,25,19,14,32,18,12,33],
  [4,1,5,1,26,26,26,20,N,33,19,13,34],
  [4,0,6,0,27,27,27,N,N,34,20,14,35],
  [3,7,0,0,28,28,28,21,15,36,N,N,37],
  [3,6,1,2,29,29,29,22,16,37,21,N,38],
  [3,5,2,2,30,30,30,23,17,38,22,15,39],
  [3,4,3,2,31,31,31,24,18,39,23,16,40],
  [3,3,4,1,32,32,32,25,19,40,24,17,41],
  [3,2,5,1,33,33,33,26,20,41,25,18,42],
  [3,1,6,1,34,34,34,27,N,42,26,19,43],
  [3,0,7,0,35,35,35,N,N,43,27,20,44],
  [2,8,0,0,36,36,36,28,21,45,N,N,46],
  [2,7,1,2,37,37,37,29,22,46,28,N,47],
  [2,6,2,2,38,38,38,30,23,47,29,21,48],
  [2,5,3,0,39,39,39,31,24,48,30,22,49],
  [2,4,4,0,40,40,40,32,25,49,31,23,50],
  [2,3,5,0,41,41,41,33,26,50,32,24,51],
  [2,2,6,1,42,42,42,34,27,51,33,25,52],
  [2,1,7,1,43,43,43,35,N,52,34,26,53],
  [2,0,8,0,44,44,44,N,N,53,35,27,54],
  [1,9,0,0,45,N,45,36,28,55,N,N,56],
  [1,8,1,2,46,N,46,37,29,56,36,N,57],
  [1,7,2,0,47,N,47,38,30,57,37,28,58],
  [1,6,3,0,48,N,48,39,31,58,38,29,59],
  [1,5,4,0,49,N,49,40,32,59,39,30,60],
  [1,4,5,0,50,N,50,41,33,60,40,31,61],
  [1,3,6,0,51,N,51,42,34,61,41,32,62],
  [1,2,7,0,52,N,52,43,35,62,42,33,63],
  [1,1,8,1,53,N,53,44,N,63,43,34,64],
  [1,0,9,0,54,N,54,N,N,64,44,35,65],
  [0,10,0,1,N,N,55,45,36,66,N,N,67],
  [0,9,1,2,N,N,56,46,37,67,45,N,68],
  [0,8,2,2,N,N,57,47,38,68,46,36,69],
  [0,7,3,2,N,N,58,48,39,69,47,37,70],
  [0,6,4,2,N,N,59,49,40,70,48,38,71],
  [0,5,5,2,N,N,60,50,41,71,49,39,72],
  [0,4,6,1,N,N,61,51,42,72,50,40,73],
  [0,3,7,1,N,N,62,52,43,73,51,41,74],
  [0,2,8,1,N,N,63,53,44,74,52,42,75],
  [0,1,9,1,N,N,64,54,N,75,53,43,76],
  [0,0,10,2,N,N,65,N,N,76,54,44,77]]

def recur11 : List (List ℤ) := [
  [11,0,0,0,0,0,0,N,N,1,N,N,2],
  [10,1,0,1,1,1,1,0,N,3,N,N,4],
  [10,0,1,2,2,2,2,N,N,4,0,N,5],
  [9,2,0,1,3,3,3,1,0,6,N,N,7],
  [9,1,1,2,4,4,4,2,N,7,1,N,8],
  [9,0,2,2,5,5,5,N,N,8,2,0,9],
  [8,3,0,1,6,6,6,3,1,10,N,N,11],
  [8,2,1,2,7,7,7,4,2,11,3,N,12],
  [8,1,2,1,8,8,8,5,N,12,4,1,13],
  [8,0,3,2,9,9,9,N,N,13,5,2,14],
  [7,4,0,1,10,10,10,6,3,15,N,N,16],
  [7,3,1,2,11,11,11,7,4,16,6,N,17],
  [7,2,2,2,12,12,12,8,5,17,7,3,18],
  [7,1,3,1,13,13,13,9,N,18,8,4,19],
  [7,0,4,2,14,14,14,N,N,19,9,5,20],
  [6,5,0,1,15,15,15,10,6,21,N,N,22],
  [6,4,1,2,16,16,16,11,7,22,10,N,23],
  [6,3,2,2,17,17,17,12,8,23,11,6,24],
  [6,2,3,1,18,18,18,13,9,24,12,7,25],
  [6,1,4,1,19,19,19,14,N,25,13,8,26],
  [6,0,5,2,20,20,20,N,N,26,14,9,27],
  [5,6,0,0,21,21,21,15,10,28,N,N,29],
  [5,5,1,2,22,22,22,16,11,29,15,N,30],
  [5,4,2,2,23,23,23,17,12,30,16,10,31],
  [5,3,3,2,24,24,24,18,13,31,17,11,32],
  [5,2,4,1,25,25,25,19,14,32,18,12,33],
  [5,1,5,1,26,26,26,20,N,33,19,13,34],
  [5,0,6,0,27,27,27,N,N,34,20,14,35],
  [4,7,0,0,28,28,28,21,15,36,N,N,37],
  [4,6,1,2,29,29,29,22,16,37,21,N,38],
  [4,5,2,2,30,30,30,23,17,38,22,15,39],
  [4,4,3,2,31,31,31,24,18,39,23,16,40],
  [4,3,4,1,32,32,32,25,19,40,24,17,41],
  [4,2,5,1,33,33,33,26,20,41,25,18,42],
  [4,1,6,1,34,34,34,27,N,42,26,19,43],
  [4,0,7,0,35,35,35,N,N,43,27,20,44],
  [3,8,0,0,36,36,36,28,21,45,N,N,46],
  [3,7,1,2,37,37,37,29,22,46,28,N,47],
  [3,6,2,2,38,38,38,30,23,47,29,21,48],
  [3,5,3,2,39,39,39,31,24,48,30,22,49],
  [3,4,4,0,40,40,40,32,25,49,31,23,50],
  [3,3,5,1,41,41,41,33,26,50,32,24,51],
  [3,2,6,1,42,42,42,34,27,51,33,25,52],
  [3,1,7,1,43,43,43,35,N,52,34,26,53],
  [3,0,8,0,44,44,44,N,N,53,35,27,54],
  [2,9,0,0,45,45,45,36,28,55,N,N,56],
  [2,8,1,2,46,46,46,37,29,56,36,N,57],
  [2,7,2,2,47,47,47,38,30,57,37,28,58],
  [2,6,3,0,48,48,48,39,31,58,38,29,59],
  [2,5,4,0,49,49,49,40,32,59,39,30,60],
  [2,4,5,0,50,50,50,41,33,60,40,31,61],
  [2,3,6,0,51,51,51,42,34,61,41,32,62],
  [2,2,7,1,52,52,52,43,35,62,42,33,63],
  [2,1,8,1,53,53,53,44,N,63,43,34,64],
  [2,0,9,0,54,54,54,N,N,64,44,35,65],
  [1,10,0,0,55,N,55,45,36,66,N,N,67],
  [1,9,1,2,56,N,56,46,37,67,45,N,68],
  [1,8,2,0,57,N,57,47,38,68,46,36,69],
  [1,7,3,0,58,N,58,48,39,69,47,37,70],
  [1,6,4,0,59,N,59,49,40,70,48,38,71],
  [1,5,5,0,60,N,60,50,41,71,49,39,72],
  [1,4,6,0,61,N,61,51,42,72,50,40,73],
  [1,3,7,0,62,N,62,52,43,73,51,41,74],
  [1,2,8,0,63,N,63,53,44,74,52,42,75],
  [1,1,9,1,64,N,64,54,N,75,53,43,76],
  [1,0,10,0,65,N,65,N,N,76,54,44,77],
  [0,11,0,1,N,N,66,55,45,78,N,N,79],
  [0,10,1,2,N,N,67,56,46,79,55,N,80],
  [0,9,2,2,N,N,68,57,47,80,56,45,81],
  [0,8,3,2,N,N,69,58,48,81,57,46,82],
  [0,7,4,2,N,N,70,59,49,82,58,47,83],
  [0,6,5,2,N,N,71,60,50,83,59,48,84],
  [0,5,6,1,N,N,72,61,51,84,60,49,85],
  [0,4,7,1,N,N,73,62,52,85,61,50,86],
  [0,3,8,1,N,N,74,63,53,86,62,51,87],
  [0,2,9,1,N,N,75,64,54,87,63,52,88],
  [0,1,10,1,N,N,76,65,N,88,64,53,89],
  [0,0,11,2,N,N,77,N,N,89,65,54,90]]

def recur12 : List (List ℤ) := [
  [12,0,0,0,0,0,0,N,N,1,N,N,2],
  [11,1,0,1,1,1,1,0,N,3,N,N,4],
  [11,0,1,2,2,2,2,N,N,4,0,N,5],
  [10,2,0,1,3,3,3,1,0,6,N,N,7],
  [10,1,1,2,4,4,4,2,N,7,1,N,8],
  [10,0,2,2,5,5,5,N,N,8,2,0,9],
  [9,3,0,1,6,6,6,3,1,10,N,N,11],
  [9,2,1,2,7,7,7,4,2,11,3,N,12],
  [9,1,2,1,8,8,8,5,N,12,4,1,13],
  [9,0,3,2,9,9,9,N,N,13,5,2,14],
  [8,4,0,1,10,10,10,6,3,15,N,N,16],
  [8,3,1,2,11,11,11,7,4,16,6,N,17],
  [8,2,2,2,12,12,12,8,5,17,7,3,18],
  [8,1,3,1,13,13,13,9,N,18,8,4,19],
  [8,0,4,2,14,14,14,N,N,19,9,5,20],
  [7,5,0,1,15,15,15,10,6,21,N,N,22],
  [7,4,1,2,16,16,16,11,7,22,10,N,23],
  [7,3,2,2,17,17,17,12,8,23,11,6,24],
  [7,2,3,1,18,18,18,13,9,24,12,7,25],
  [7,1,4,1,19,19,19,14,N,25,13,8,26],
  [7,0,5,2,20,20,20,N,N,26,14,9,27],
  [6,6,0,1,21,21,21,15,10,28,N,N,29],
  [6,5,1,2,22,22,22,16,11,29,15,N,30],
  [6,4,2,2,23,23,23,17,12,30,16,10,31],
  [6,3,3,2,24,24,24,18,13,31,17,11,32],
  [6,2,4,1,25,25,25,19,14,32,18,12,33],
  [6,1,5,1,26,26,26,20,N,33,19,13,34],
  [6,0,6,2,27,27,27,N,N,34,20,14,35],
  [5,7,0,0,28,28,28,21,15,36,N,N,37],
  [5,6,1,2,29,29,29,22,16,37,21,N,38],
  [5,5,2,2,30,30,30,23,17,38,22,15,39],
  [5,4,3,2,31,31,31,24,18,39,23,16,40],
  [5,3,4,1,32,32,32,25,19,40,24,17,41],
  [5,2,5,1,33,33,33,26,20,41,25,18,42],
  [5,1,6,1,34,34,34,27,N,42,26,19,43],
  [5,0,7,0,35,35,35,N,N,43,27,20,44],
  [4,8,0,0,36,36,36,28,21,45,N,N,46],
  [4,7,1,2,37,37,37,29,22,46,28,N,47],
  [4,6,2,2,38,38,38,30,23,47,29,21,48],
  [4,5,3,2,39,39,39,31,24,48,30,22,49],
  [4,4,4,2,40,40,40,32,25,49,31,23,50],
  [4,3,5,1,41,41,41,33,26,50,32,24,51],
  [4,2,6,1,42,42,42,34,27,51,33,25,52],
  [4,1,7,1,43,43,43,35,N,52,34,26,53],
  [4,0,8,0,44,44,44,N,N,53,35,27,54],
  [3,9,0,0,45,45,45,36,28,55,N,N,56],
  [3,8,1,2,46,46,46,37,29,56,36,N,57],
  [3,7,2,2,47,47,47,38,30,57,37,28,58],
  [3,6,3,2,48,48,48,39,31,58,38,29,59],
  [3,5,4,0,49,49,49,40,32,59,39,30,60],
  [3,4,5,0,50,50,50,41,33,60,40,31,61],
  [3,3,6,1,51,51,51,42,34,61,41,32,62],
  [3,2,7,1,52,52,52,43,35,62,42,33,63],
  [3,1,8,1,53,53,53,44,N,63,43,34,64],
  [3,0,9,0,54,54,54,N,N,64,44,35,65],
  [2,10,0,0,55,55,55,45,36,66,N,N,67],
  [2,9,1,2,56,56,56,46,37,67,45,N,68],
  [2,8,2,2,57,57,57,47,38,68,46,36,69],
  [2,7,3,0,58,58,58,48,39,69,47,37,70],
  [2,6,4,0,59,59,59,49,40,70,48,38,71],
  [2,5,5,0,60,60,60,50,41,71,49,39,72],
  [2,4,6,0,61,61,61,51,42,72,50,40,73],
  [2,3,7,0,62,62,62,52,43,73,51,41,74],
  [2,2,8,1,63,63,63,53,44,74,52,42,75],
  [2,1,9,1,64,64,64,54,N,75,53,43,76],
  [2,0,10,0,65,65,65,N,N,76,54,44,77],
  [1,11,0,0,66,N,66,55,45,78,N,N,79],
  [1,10,1,2,67,N,67,56,46,79,55,N,80],
  [1,9,2,0,68,N,68,57,47,80,56,45,81],
  [1,8,3,0,69,N,69,58,48,81,57,46,82],
  [1,7,4,0,70,N,70,59,49,82,58,47,83],
  [1,6,5,0,71,N,71,60,50,83,59,48,84],
  [1,5,6,0,72,N,72,61,51,84,60,49,85],
  [1,4,7,0,73,N,73,62,52,85,61,50,86],
  [1,3,8,0,74,N,74,63,53,86,62,51,87],
  [1,2,9,0,75,N,75,64,54,87,63,52,88],
  [1,1,10,1,76,N,76,65,N,88,64,53,89],
  [1,0,11,0,77,N,77,N,N,89,65,54,90],
  [0,12,0,1,N,N,78,66,55,91,N,N,92],
  [0,11,1,2,N,N,79,67,56,92,66,N,93],
  [0,10,2,2,N,N,80,68,57,93,67,55,94],
  [0,9,3,2,N,N,81,69,58,94,68,56,95],
  [0,8,4,2,N,N,82,70,59,95,69,57,96],
  [0,7,5,2,N,N,83,71,60,96,70,58,97],
  [0,6,6,2,N,N,84,72,61,97,71,59,98],
  [0,5,7,1,N,N,85,73,62,98,72,60,99],
  [0,4,8,1,N,N,86,74,63,99,73,61,100],
  [0,3,9,1,N,N,87,75,64,100,74,62,101],
  [0,2,10,1,N,N,88,76,65,101,75,63,102],
  [0,1,11,1,N,N,89,77,N,102,76,64,103],
  [0,0,12,2,N,N,90,N,N,103,77,65,104]]

def recur13 : List (List ℤ) := [
  [13,0,0,0,0,0,0,N,N,1,N,N,2],
  [12,1,0,1,1,1,1,0,N,3,N,N,4],
  [12,0,1,2,2,2,2,N,N,4,0,N,5],
  [11,2,0,1,3,3,3,1,0,6,N,N,7],
  [11,1,1,2,4,4,4,2,N,7,1,N,8],
  [11,0,2,2,5,5,5,N,N,8,2,0,9],
  [10,3,0,1,6,6,6,3,1,10,N,N,11],
  [10,2,1,2,7,7,7,4,2,11,3,N,12],
  [10,1,2,1,8,8,8,5,N,12,4,1,13],
  [10,0,3,2,9,9,9,N,N,13,5,2,14],
  [9,4,0,1,10,10,10,6,3,15,N,N,16],
  [9,3,1,2,11,11,11,7,4,16,6,N,17],
  [9,2,2,2,12,12,12,8,5,17,7,3,18],
  [9,1,3,1,13,13,13,9,N,18,8,4,19],
  [9,0,4,2,14,14,14,N,N,19,9,5,20],
  [8,5,0,1,15,15,15,10,6,21,N,N,22],
  [8,4,1,2,16,16,16,11,7,22,10,N,23],
  [8,3,2,2,17,17,17,12,8,23,11,6,24],
  [8,2,3,1,18,18,18,13,9,24,12,7,25],
  [8,1,4,1,19,19,19,14,N,25,13,8,26],
  [8,0,5,2,20,20,20,N,N,26,14,9,27],
  [7,6,0,1,21,21,21,15,10,28,N,N,29],
  [7,5,1,2,22,22,22,16,11,29,15,N,30],
  [7,4,2,2,23,23,23,17,12,30,16,10,31],
  [7,3,3,2,24,24,24,18,13,31,17,11,32],
  [7,2,4,1,25,25,25,19,14,32,18,12,33],
  [7,1,5,1,26,26,26,20,N,33,19,13,34],
  [7,0,6,2,27,27,27,N,N,34,20,14,35],
  [6,7,0,0,28,28,28,21,15,36,N,N,37],
  [6,6,1,2,29,29,29,22,16,37,21,N,38],
  [6,5,2,2,30,30,30,23,17,38,22,15,39],
  [6,4,3,2,31,31,31,24,18,39,23,16,40],
  [6,3,4,1,32,32,32,25,19,40,24,17,41],
  [6,2,5,1,33,33,33,26,20,41,25,18,42],
  [6,1,6,1,34,34,34,27,N,42,26,19,43],
  [6,0,7,0,35,35,35,N,N,43,27,20,44],
  [5,8,0,0,36,36,36,28,21,45,N,N,46],
  [5,7,1,2,37,37,37,29,22,46,28,N,47],
  [5,6,2,2,38,38,38,30,23,47,29,21,48],
  [5,5,3,2,39,39,39,31,24,48,30,22,49],
  [5,4,4,2,40,40,40,32,25,49,31,23,50],
  [5,3,5,1,41,41,41,33,26,50,32,24,51],
  [5,2,6,1,42,42,42,34,27,51,33,25,52],
  [5,1,7,1,43,43,43,35,N,52,34,26,53],
  [5,0,8,0,44,44,44,N,N,53,35,27,54],
  [4,9,0,0,45,45,45,36,28,55,N,N,56],
  [4,8,1,2,46,46,46,37,29,56,36,N,57],
  [4,7,2,2,47,47,47,38,30,57,37,28,58],
  [4,6,3,2,48,48,48,39,31,58,38,29,59],
  [4,5,4,2,49,49,49,40,32,59,39,30,60],
  [4,4,5,1,50,50,50,41,33,60,40,31,61],
  [4,3,6,1,51,51,51,42,34,61,41,32,62],
  [4,2,7,1,52,52,52,43,35,62,42,33,63],
  [4,1,8,1,53,53,53,44,N,63,43,34,64],
  [4,0,9,0,54,54,54,N,N,64,44,35,65],
  [3,10,0,0,55,55,55,45,36,66,N,N,67],
  [3,9,1,2,56,56,56,46,37,67,45,N,68],
  [3,8,2,2,57,57,57,47,38,68,46,36,69],
  [3,7,3,2,58,58,58,48,39,69,47,37,70],
  [3,6,4,0,59,59,59,49,40,70,48,38,71],
  [3,5,5,0,60,60,60,50,41,71,49,39,72],
  [3,4,6,0,61,61,61,51,42,72,50,40,73],
  [3,3,7,1,62,62,62,52,43,73,51,41,74],
  [3,2,8,1,63,63,63,53,44,74,52,42,75],
  [3,1,9,1,64,64,64,54,N,75,53,43,76],
  [3,0,10,0,65,65,65,N,N,76,54,44,77],
  [2,11,0,0,66,66,66,55,45,78,N,N,79],
  [2,10,1,2,67,67,67,56,46,79,55,N,80],
  [2,9,2,2,68,68,68,57,47,80,56,45,81],
  [2,8,3,0,69,69,69,58,48,81,57,46,82],
  [2,7,4,0,70,70,70,59,49,82,58,47,83],
  [2,6,5,0,71,71,71,60,50,83,59,48,84],
  [2,5,6,0,72,72,72,61,51,84,60,49,85],
  [2,4,7,0,73,73,73,62,52,85,61,50,86],
  [2,3,8,0,74,74,74,63,53,86,62,51,87],
  [2,2,9,1,75,75,75,64,54,87,63,52,88],
  [2,1,10,1,76,76,76,65,N,88,64,53,89],
  [2,0,11,0,77,77,77,N,N,89,65,54,90],
  [1,12,0,0,78,N,78,66,55,91,N,N,92],
  [1,11,1,2,79,N,79,67,56,92,66,N,93],
  [1,10,2,0,80,N,80,68,57,93,67,55,94],
  [1,9,3,0,81,N,81,69,58,94,68,56,95],
  [1,8,4,0,82,N,82,70,59,95,69,57,96],
  [1,7,5,0,83,N,83,71,60,96,70,58,97],
  [1,6,6,0,84,N,84,72,61,97,71,59,98],
  [1,5,7,0,85,N,85,73,62,98,72,60,99],
  [1,4,8,0,86,N,86,74,63,99,73,61,100],
  [1,3,9,0,87,N,87,75,64,100,74,62,101],
  [1,2,10,0,88,N,88,76,65,101,75,63,102],
  [1,1,11,1,89,N,89,77,N,102,76,64,103],
  [1,0,12,0,90,N,90,N,N,103,77,65,104],
  [0,13,0,1,N,N,91,78,66,105,N,N,106],
  [0,12,1,2,N,N,92,79,67,106,78,N,107],
  [0,11,2,2,N,N,93,80,68,107,79,66,108],
  [0,10,3,2,N,N,94,81,69,108,80,67,109],
  [0,9,4,2,N,N,95,82,70,109,81,68,110],
  [0,8,5,2,N,N,96,83,71,110,82,69,111],
  [0,7,6,2,N,N,97,84,72,111,83,70,112],
  [0,6,7,1,N,N,98,85,73,112,84,71,113],
  [0,5,8,1,N,N,99,86,74,113,85,72,114],
  [0,4,9,1,N,N,100,87,75,114,86,73,115],
  [0,3,10,1,N,N,101,88,76,115,87,74,116],
  [0,2,11,1,N,N,102,89,77,116,88,75,117],
  [0,1,12,1,N,N,103,90,N,117,89,76,118],
  [0,0,13,2,N,N,104,N,N,118,90,77,119]]

def recur14 : List (List ℤ) := [
  [14,0,0,0,0,0,0,N,N,1,N,N,2],
  [13,1,0,1,1,1,1,0,N,3,N,N,4],
  [13,0,1,2,2,2,2,N,N,4,0,N,5],
  [12,2,0,1,3,3,3,1,0,6,N,N,7],
  [12,1,1,2,4,4,4,2,N,7,1,N,8],
  [12,0,2,2,5,5,5,N,N,8,2,0,9],
  [11,3,0,1,6,6,6,3,1,10,N,N,11],
  [11,2,1,2,7,7,7,4,2,11,3,N,12],
  [11,1,2,1,8,8,8,5,N,12,4,1,13],
  [11,0,3,2,9,9,9,N,N,13,5,2,14],
  [10,4,0,1,10,10,10,6,3,15,N,N,16],
  [10,3,1,2,11,11,11,7,4,16,6,N,17],
  [10,2,2,2,12,12,12,8,5,17,7,3,18],
  [10,1,3,1,13,13,13,9,N,18,8,4,19],
  [10,0,4,2,14,14,14,N,N,19,9,5,20],
  [9,5,0,1,15,15,15,10,6,21,N,N,22],
  [9,4,1,2,16,16,16,11,7,22,10,N,23],
  [9,3,2,2,17,17,17,12,8,23,11,6,24],
  [9,2,3,1,18,18,18,13,9,24,12,7,25],
  [9,1,4,1,19,19,19,14,N,25,13,8,26],
  [9,0,5,2,20,20,20,N,N,26,14,9,27],
  [8,6,0,1,21,21,21,15,10,28,N,N,29],
  [8,5,1,2,22,22,22,16,11,29,15,N,30],
  [8,4,2,2,23,23,23,17,12,30,16,10,31],
  [8,3,3,2,24,24,24,18,13,31,17,11,32],
  [8,2,4,1,25,25,25,19,14,32,18,12,33],
  [8,1,5,1,26,26,26,20,N,33,19,13,34],
  [8,0,6,2,27,27,27,N,N,34,20,14,35],
  [7,7,0,1,28,28,28,21,15,36,N,N,37],
  [7,6,1,2,29,29,29,22,16,37,21,N,38],
  [7,5,2,2,30,30,30,23,17,38,22,15,39],
  [7,4,3,2,31,31,31,24,18,39,23,16,40],
  [7,3,4,1,32,32,32,25,19,40,24,17,41],
  [7,2,5,1,33,33,33,26,20,41,25,18,42],
  [7,1,6,1,34,34,34,27,N,42,26,19,43],
  [7,0,7,2,35,35,35,N,N,43,27,20,44],
  [6,8,0,0,36,36,36,28,21,45,N,N,46],
  [6,7,1,2,37,37,37,29,22,46,28,N,47],
  [6,6,2,2,38,38,38,30,23,47,29,21,48],
  [6,5,3,2,39,39,39,31,24,48,30,22,49],
  [6,4,4,2,40,40,40,32,25,49,31,23,50],
  [6,3,5,1,41,41,41,33,26,50,32,24,51],
  [6,2,6,1,42,42,42,34,27,51,33,25,52],
  [6,1,7,1,43,43,43,35,N,52,34,26,53],
  [6,0,8,0,44,44,44,N,N,53,35,27,54],
  [5,9,0,0,45,45,45,36,28,55,N,N,56],
  [5,8,1,2,46,46,46,37,29,56,36,N,57],
  [5,7,2,2,47,47,47,38,30,57,37,28,58],
  [5,6,3,2,48,48,48,39,31,58,38,29,59],
  [5,5,4,2,49,49,49,40,32,59,39,30,60],
  [5,4,5,1,50,50,50,41,33,60,40,31,61],
  [5,3,6,1,51,51,51,42,34,61,41,32,62],
  [5,2,7,1,52,52,52,43,35,62,42,33,63],
  [5,1,8,1,53,53,53,44,N,63,43,34,64],
  [5,0,9,0,54,54,54,N,N,64,44,35,65],
  [4,10,0,0,55,55,55,45,36,66,N,N,67],
  [4,9,1,2,56,56,56,46,37,67,45,N,68],
  [4,8,2,2,57,57,57,47,38,68,46,36,69],
  [4,7,3,2,58,58,58,48,39,69,47,37,70],
  [4,6,4,2,59,59,59,49,40,70,48,38,71],
  [4,5,5,0,60,60,60,50,41,71,49,39,72],
  [4,4,6,1,61,61,61,51,42,72,50,40,73],
  [4,3,7,1,62,62,62,52,43,73,51,41,74],
  [4,2,8,1,63,63,63,53,44,74,52,42,75],
  [4,1,9,1,64,64,64,54,N,75,53,43,76],
  [4,0,10,0,65,65,65,N,N,76,54,44,77],
  [3,11,0,0,66,66,66,55,45,78,N,N,79],
  [3,10,1,2,67,67,67,56,46,79,55,N,80],
  [3,9,2,2,68,68,68,57,47,80,56,45,81],
  [3,8,3,2,69,69,69,58,48,81,57,46,82],
  [3,7,4,0,70,70,70,59,49,82,58,47,83],
  [3,6,5,0,71,71,71,60,50,83,59,48,84],
  [3,5,6,0,72,72,72,61,51,84,60,49,85],
  [3,4,7,0,73,73,73,62,52,85,61,50,86],
  [3,3,8,1,74,74,74,63,53,86,62,51,87],
  [3,2,9,1,75,75,75,64,54,87,63,52,88],
  [3,1,10,1,76,76,76,65,N,88,64,53,89],
  [3,0,11,0,77,77,77,N,N,89,65,54,90],
  [2,12,0,0,78,78,78,66,55,91,N,N,92],
  [2,11,1,2,79,79,79,67,56,92,66,N,93],
  [2,10,2,2,80,80,80,68,57,93,67,55,94],
  [2,9,3,0,81,81,81,69,58,94,68,56,95],
  [2,8,4,0,82,82,82,70,59,95,69,57,96],
  [2,7,5,0,83,83,83,71,60,96,70,58,97],
  [2,6,6,0,84,84,84,72,61,97,71,59,98],
  [2,5,7,0,85,85,85,73,62,98,72,60,99],
  [2,4,8,0,86,86,86,74,63,99,73,61,100],
  [2,3,9,0,87,87,87,75,64,100,74,62,101],
  [2,2,10,1,88,88,88,76,65,101,75,63,102],
  [2,1,11,1,89,89,89,77,N,102,76,64,103],
  [2,0,12,0,90,90,90,N,N,103,77,65,104],
  [1,13,0,0,91,N,91,78,66,105,N,N,106],
  [1,12,1,2,92,N,92,79,67,106,78,N,107],
  [1,11,2,0,93,N,93,80,68,107,79,66,108],
  [1,10,3,0,94,N,94,81,69,108,80,67,109],
  [1,9,4,0,95,N,95,82,70,109,81,68,110],
  [1,8,5,0,96,N,96,83,71,110,82,69,111],
  [1,7,6,0,97,N,97,84,72,111,83,70,112],
  [1,6,7,0,98,N,98,85,73,112,84,71,113],
  [1,5,8,0,99,N,99,86,74,113,85,72,114],
  [1,4,9,0,100,N,100,87,75,114,86,73,115],
  [1,3,10,0,101,N,101,88,76,115,87,74,116],
  [1,2,11,0,102,N,102,89,77,116,88,75,117],
  [1,1,12,1,103,N,103,90,N,117,89,76,118],
  [1,0,13,0,104,N,104,N,N,118,90,77,119],
  [0,14,0,1,N,N,105,91,78,120,N,N,121],
  [0,13,1,2,N,N,106,92,79,121,91,N,122],
  [0,12,2,2,N,N,107,93,80,122,92,78,123],
  [0,11,3,2,N,N,108,94,81,123,93,79,124],
  [0,10,4,2,N,N,109,95,82,124,94,80,125],
  [0,9,5,2,N,N,110,96,83,125,95,81,126],
  [0,8,6,2,N,N,111,97,84,126,96,82,127],
  [0,7,7,2,N,N,112,98,85,127,97,83,128],
  [0,6,8,1,N,N,113,99,86,128,98,84,129],
  [0,5,9,1,N,N,114,100,87,129,99,85,130],
  [0,4,10,1,N,N,115,101,88,130,100,86,131],
  [0,3,11,1,N,N,116,102,89,131,101,87,132],
  [0,2,12,1,N,N,117,103,90,132,102,88,133],
  [0,1,13,1,N,N,118,104,N,133,103,89,134],
  [0,0,14,2,N,N,119,N,N,134,104,90,135]]

def recur15 : List (List ℤ) := [
  [15,0,0,0,0,0,0,N,N,1,N,N,2],
  [14,1,0,1,1,1,1,0,N,3,N,N,4],
  [14,0,1,2,2,2,2,N,N,4,0,N,5],
  [13,2,0,1,3,3,3,1,0,6,N,N,7],
  [13,1,1,2,4,4,4,2,N,7,1,N,8],
  [13,0,2,2,5,5,5,N,N,8,2,0,9],
  [12,3,0,1,6,6,6,3,1,10,N,N,11],
  [12,2,1,2,7,7,7,4,2,11,3,N,12],
  [12,1,2,1,8,8,8,5,N,12,4,1,13],
  [12,0,3,2,9,9,9,N,N,13,5,2,14],
  [11,4,0,1,10,10,10,6,3,15,N,N,16],
  [11,3,1,2,11,11,11,7,4,16,6,N,17],
  [11,2,2,2,12,12,12,8,5,17,7,3,18],
  [11,1,3,1,13,13,13,9,N,18,8,4,19],
  [11,0,4,2,14,14,14,N,N,19,9,5,20],
  [10,5,0,1,15,15,15,10,6,21,N,N,22],
  [10,4,1,2,16,16,16,11,7,22,10,N,23],
  [10,3,2,2,17,17,17,12,8,23,11,6,24],
  [10,2,3,1,18,18,18,13,9,24,12,7,25],
  [10,1,4,1,19,19,19,14,N,25,13,8,26],
  [10,0,5,2,20,20,20,N,N,26,14,9,27],
  [9,6,0,1,21,21,21,15,10,28,N,N,29],
  [9,5,1,2,22,22,22,16,11,29,15,N,30],
  [9,4,2,2,23,23,23,17,12,30,16,10,31],
  [9,3,3,2,24,24,24,18,13,31,17,11,32],
  [9,2,4,1,25,25,25,19,14,32,18,12,33],
  [9,1,5,1,26,26,26,20,N,33,19,13,34],
  [9,0,6,2,27,27,27,N,N,34,20,14,35],
  [8,7,0,1,28,28,28,21,15,36,N,N,37],
  [8,6,1,2,29,29,29,22,16,37,21,N,38],
  [8,5,2,2,30,30,30,23,17,38,22,15,39],
  [8,4,3,2,31,31,31,24,18,39,23,16,40],
  [8,3,4,1,32,32,32,25,19,40,24,17,41],
  [8,2,5,1,33,33,33,26,20,41,25,18,42],
  [8,1,6,1,34,34,34,27,N,42,26,19,43],
  [8,0,7,2,35,35,35,N,N,43,27,20,44],
  [7,8,0,0,36,36,36,28,21,45,N,N,46],
  [7,7,1,2,37,37,37,29,22,46,28,N,47],
  [7,6,2,2,38,38,38,30,23,47,29,21,48],
  [7,5,3,2,39,39,39,31,24,48,30,22,49],
  [7,4,4,2,40,40,40,32,25,49,31,23,50],
  [7,3,5,1,41,41,41,33,26,50,32,24,51],
  [7,2,6,1,42,42,42,34,27,51,33,25,52],
  [7,1,7,1,43,43,43,35,N,52,34,26,53],
  [7,0,8,0,44,44,44,N,N,53,35,27,54],
  [6,9,0,0,45,45,45,36,28,55,N,N,56],
  [6,8,1,2,46,46,46,37,29,56,36,N,57],
  [6,7,2,2,47,47,47,38,30,57,37,28,58],
  [6,6,3,2,48,48,48,39,31,58,38,29,59],
  [6,5,4,2,49,49,49,40,32,59,39,30,60],
  [6,4,5,1,50,50,50,41,33,60,40,31,61],
  [6,3,6,1,51,51,51,42,34,61,41,32,62],
  [6,2,7,1,52,52,52,43,35,62,42,33,63],
  [6,1,8,1,53,53,53,44,N,63,43,34,64],
  [6,0,9,0,54,54,54,N,N,64,44,35,65],
  [5,10,0,0,55,55,55,45,36,66,N,N,67],
  [5,9,1,2,56,56,56,46,37,67,45,N,68],
  [5,8,2,2,57,57,57,47,38,68,46,36,69],
  [5,7,3,2,58,58,58,48,39,69,47,37,70],
  [5,6,4,2,59,59,59,49,40,70,48,38,71],
  [5,5,5,2,60,60,60,50,41,71,49,39,72],
  [5,4,6,1,61,61,61,51,42,72,50,40,73],
  [5,3,7,1,62,62,62,52,43,73,51,41,74],
  [5,2,8,1,63,63,63,53,44,74,52,42,75],
  [5,1,9,1,64,64,64,54,N,75,53,43,76],
  [5,0,10,0,65,65,65,N,N,76,54,44,77],
  [4,11,0,0,66,66,66,55,45,78,N,N,79],
  [4,10,1,2,67,67,67,56,46,79,55,N,80],
  [4,9,2,2,68,68,68,57,47,80,56,45,81],
  [4,8,3,2,69,69,69,58,48,81,57,46,82],
  [4,7,4,2,70,70,70,59,49,82,58,47,83],
  [4,6,5,0,71,71,71,60,50,83,59,48,84],
  [4,5,6,0,72,72,72,61,51,84,60,49,85],
  [4,4,7,1,73,73,73,62,52,85,61,50,86],
  [4,3,8,1,74,74,74,63,53,86,62,51,87],
  [4,2,9,1,75,75,75,64,54,87,63,52,88],
  [4,1,10,1,76,76,76,65,N,88,64,53,89],
  [4,0,11,0,77,77,77,N,N,89,65,54,90],
  [3,12,0,0,78,78,78,66,55,91,N,N,92],
  [3,11,1,2,79,79,79,67,56,92,66,N,93],
  [3,10,2,2,80,80,80,68,57,93,67,55,94],
  [3,9,3,2,81,81,81,69,58,94,68,56,95],
  [3,8,4,0,82,82,82,70,59,95,69,57,96],
  [3,7,5,0,83,83,83,71,60,96,70,58,97],
  [3,6,6,0,84,84,84,72,61,97,71,59,98],
  [3,5,7,0,85,85,85,73,62,98,72,60,99],
  [3,4,8,0,86,86,86,74,63,99,73,61,100],
  [3,3,9,1,87,87,87,75,64,100,74,62,101],
  [3,2,10,1,88,88,88,76,65,101,75,63,102],
  [3,1,11,1,89,89,89,77,N,102,76,64,103],
  [3,0,12,0,90,90,90,N,N,103,77,65,104],
  [2,13,0,0,91,91,91,78,66,105,N,N,106],
  [2,12,1,2,92,92,92,79,67,106,78,N,107],
  [2,11,2,2,93,93,93,80,68,107,79,66,108],
  [2,10,3,0,94,94,94,81,69,108,80,67,109],
  [2,9,4,0,95,95,95,82,70,109,81,68,110],
  [2,8,5,0,96,96,96,83,71,110,82,69,111],
  [2,7,6,0,97,97,97,84,72,111,83,70,112],
  [2,6,7,0,98,98,98,85,73,112,84,71,113],
  [2,5,8,0,99,99,99,86,74,113,85,72,114],
  [2,4,9,0,100,100,100,87,75,114,86,73,115],
  [2,3,10,0,101,101,101,88,76,115,87,74,116],
  [2,2,11,1,102,102,102,89,77,116,88,75,117],
  [2,1,12,1,103,103,103,90,N,117,89,76,118],
  [2,0,13,0,104,104,104,N,N,118,90,77,119],
  [1,14,0,0,105,N,105,91,78,120,N,N,121],
  [1,13,1,2,106,N,106,92,79,121,91,N,122],
  [1,12,2,0,107,N,107,93,80,122,92,78,123],
  [1,11,3,0,108,N,108,94,81,123,93,79,124],
  [1,10,4,0,109,N,109,95,82,124,94,80,125],
  [1,9,5,0,110,N,110,96,83,125,95,81,126],
  [1,8,6,0,111,N,111,97,84,126,96,82,127],
  [1,7,7,0,112,N,112,98,85,127,97,83,128],
  [1,6,8,0,113,N,113,99,86,128,98,84,129],
  [1,5,9,0,114,N,114,100,87,129,99,85,130],
  [1,4,10,0,115,N,115,101,88,130,100,86,131],
  [1,3,11,0,116,N,116,102,89,131,101,87,132],
  [1,2,12,0,117,N,117,103,90,132,102,88,133],
  [1,1,13,1,118,N,118,104,N,133,103,89,134],
  [1,0,14,0,119,N,119,N,N,134,104,90,135],
  [0,15,0,1,N,N,120,105,91,136,N,N,137],
  [0,14,1,2,N,N,121,106,92,137,105,N,138],
  [0,13,2,2,N,N,122,107,93,138,106,91,139],
  [0,12,3,2,N,N,123,108,94,139,107,92,140],
  [0,11,4,2,N,N,124,109,95,140,108,93,141],
  [0,10,5,2,N,N,125,110,96,141,109,94,142],
  [0,9,6,2,N,N,126,111,97,142,110,95,143],
  [0,8,7,2,N,N,127,112,98,143,111,96,144],
  [0,7,8,1,N,N,128,113,99,144,112,97,145],
  [0,6,9,1,N,N,129,114,100,145,113,98,146],
  [0,5,10,1,N,N,130,115,101,146,114,99,147],
  [0,4,11,1,N,N,131,116,102,147,115,100,148],
  [0,3,12,1,N,N,132,117,103,148,116,101,149],
  [0,2,13,1,N,N,133,118,104,149,117,102,150],
  [0,1,14,1,N,N,134,119,N,150,118,103,151],
  [0,0,15,2,N,N,135,N,N,151,119,104,152]]

def recur16 : List (List ℤ) := [
  [16,0,0,0,0,0,0,N,N,1,N,N,2],
  [15,1,0,1,1,1,1,0,N,3,N,N,4],
  [15,0,1,2,2,2,2,N,N,4,0,N,5],
  [14,2,0,1,3,3,3,1,0,6,N,N,7],
  [14,1,1,2,4,4,4,2,N,7,1,N,8],
  [14,0,2,2,5,5,5,N,N,8,2,0,9],
  [13,3,0,1,6,6,6,3,1,10,N,N,11],
  [13,2,1,2,7,7,7,4,2,11,3,N,12],
  [13,1,2,1,8,8,8,5,N,12,4,1,13],
  [13,0,3,2,9,9,9,N,N,13,5,2,14],
  [12,4,0,1,10,10,10,6,3,15,N,N,16],
  [12,3,1,2,11,11,11,7,4,16,6,N,17],
  [12,2,2,2,12,12,12,8,5,17,7,3,18],
  [12,1,3,1,13,13,13,9,N,18,8,4,19],
  [12,0,4,2,14,14,14,N,N,19,9,5,20],
  [11,5,0,1,15,15,15,10,6,21,N,N,22],
  [11,4,1,2,16,16,16,11,7,22,10,N,23],
  [11,3,2,2,17,17,17,12,8,23,11,6,24],
  [11,2,3,1,18,18,18,13,9,24,12,7,25],
  [11,1,4,1,19,19,19,14,N,25,13,8,26],
  [11,0,5,2,20,20,20,N,N,26,14,9,27],
  [10,6,0,1,21,21,21,15,10,28,N,N,29],
  [10,5,1,2,22,22,22,16,11,29,15,N,30],
  [10,4,2,2,23,23,23,17,12,30,16,10,31],
  [10,3,3,2,24,24,24,18,13,31,17,11,32],
  [10,2,4,1,25,25,25,19,14,32,18,12,33],
  [10,1,5,1,26,26,26,20,N,33,19,13,34],
  [10,0,6,2,27,27,27,N,N,34,20,14,35],
  [9,7,0,1,28,28,28,21,15,36,N,N,37],
  [9,6,1,2,29,29,29,22,16,37,21,N,38],
  [9,5,2,2,30,30,30,23,17,38,22,15,39],
  [9,4,3,2,31,31,31,24,18,39,23,16,40],
  [9,3,4,1,32,32,32,25,19,40,24,17,41],
  [9,2,5,1,33,33,33,26,20,41,25,18,42],
  [9,1,6,1,34,34,34,27,N,42,26,19,43],
  [9,0,7,2,35,35,35,N,N,43,27,20,44],
  [8,8,0,1,36,36,36,28,21,45,N,N,46],
  [8,7,1,2,37,37,37,29,22,46,28,N,47],
  [8,6,2,2,38,38,38,30,23,47,29,21,48],
  [8,5,3,2,39,39,39,31,24,48,30,22,49],
  [8,4,4,2,40,40,40,32,25,49,31,23,50],
  [8,3,5,1,41,41,41,33,26,50,32,24,51],
  [8,2,6,1,42,42,42,34,27,51,33,25,52],
  [8,1,7,1,43,43,43,35,N,52,34,26,53],
  [8,0,8,2,44,44,44,N,N,53,35,27,54],
  [7,9,0,0,45,45,45,36,28,55,N,N,56],
  [7,8,1,2,46,46,46,37,29,56,36,N,57],
  [7,7,2,2,47,47,47,38,30,57,37,28,58],
  [7,6,3,2,48,48,48,39,31,58,38,29,59],
  [7,5,4,2,49,49,49,40,32,59,39,30,60],
  [7,4,5,1,50,50,50,41,33,60,40,31,61],
  [7,3,6,1,51,51,51,42,34,61,41,32,62],
  [7,2,7,1,52,52,52,43,35,62,42,33,63],
  [7,1,8,1,53,53,53,44,N,63,43,34,64],
  [7,0,9,0,54,54,54,N,N,64,44,35,65],
  [6,10,0,0,55,55,55,45,36,66,N,N,67],
  [6,9,1,2,56,56,56,46,37,67,45,N,68],
  [6,8,2,2,57,57,57,47,38,68,46,36,69],
  [6,7,3,2,58,58,58,48,39,69,47,37,70],
  [6,6,4,2,59,59,59,49,40,70,48,38,71],
  [6,5,5,2,60,60,60,50,41,71,49,39,72],
  [6,4,6,1,61,61,61,51,42,72,50,40,73],
  [6,3,7,1,62,62,62,52,43,73,51,41,74],
  [6,2,8,1,63,63,63,53,44,74,52,42,75],
  [6,1,9,1,64,64,64,54,N,75,53,43,76],
  [6,0,10,0,65,65,65,N,N,76,54,44,77],
  [5,11,0,0,66,66,66,55,45,78,N,N,79],
  [5,10,1,2,67,67,67,56,46,79,55,N,80],
  [5,9,2,2,68,68,68,57,47,80,56,45,81],
  [5,8,3,2,69,69,69,58,48,81,57,46,82],
  [5,7,4,2,70,70,70,59,49,82,58,47,83],
  [5,6,5,2,71,71,71,60,50,83,59,48,84],
  [5,5,6,1,72,72,72,61,51,84,60,49,85],
  [5,4,7,1,73,73,73,62,52,85,61,50,86],
  [5,3,8,1,74,74,74,63,53,86,62,51,87],
  [5,2,9,1,75,75,75,64,54,87,63,52,88],
  [5,1,10,1,76,76,76,65,N,88,64,53,89],
  [5,0,11,0,77,77,77,N,N,89,65,54,90],
  [4,12,0,0,78,78,78,66,55,91,N,N,92],
  [4,11,1,2,79,79,79,67,56,92,66,N,93],
  [4,10,2,2,80,80,80,68,57,93,67,55,94],
  [4,9,3,2,81,81,81,69,58,94,68,56,95],
  [4,8,4,2,82,82,82,70,59,95,69,57,96],
  [4,7,5,0,83,83,83,71,60,96,70,58,97],
  [4,6,6,0,84,84,84,72,61,97,71,59,98],
  [4,5,7,0,85,85,85,73,62,98,72,60,99],
  [4,4,8,1,86,86,86,74,63,99,73,61,100],
  [4,3,9,1,87,87,87,75,64,100,74,62,101],
  [4,2,10,1,88,88,88,76,65,101,75,63,102],
  [4,1,11,1,89,89,89,77,N,102,76,64,103],
  [4,0,12,0,90,90,90,N,N,103,77,65,104],
  [3,13,0,0,91,91,91,78,66,105,N,N,106],
  [3,12,1,2,92,92,92,79,67,106,78,N,107],
  [3,11,2,2,93,93,93,80,68,107,79,66,108],
  [3,10,3,2,94,94,94,81,69,108,80,67,109],
  [3,9,4,0,95,95,95,82,70,109,81,68,110],
  [3,8,5,0,96,96,96,83,71,110,82,69,111],
  [3,7,6,0,97,97,97,84,72,111,83,70,112],
  [3,6,7,0,98,98,98,85,73,112,84,71,113],
  [3,5,8,0,99,99,99,86,74,113,85,72,114],
  [3,4,9,0,100,100,100,87,75,114,86,73,115],
  [3,3,10,1,101,101,101,88,76,115,87,74,116],
  [3,2,11,1,102,102,102,89,77,116,88,75,117],
  [3,1,12,1,103,103,103,90,N,117,89,76,118],
  [3,0,13,0,104,104,104,N,N,118,90,77,119],
  [2,14,0,0,105,105,105,91,78,120,N,N,121],
  [2,13,1,2,106,106,106,92,79,121,91,N,122],
  [2,12,2,2,107,107,107,93,80,122,92,78,123],
  [2,11,3,0,108,108,108,94,81,123,93,79,124],
  [2,10,4,0,109,109,109,95,82,124,94,80,125],
  [2,9,5,0,110,110,110,96,83,125,95,81,126],
  [2,8,6,0,111,111,111,97,84,126,96,82,127],
  [2,7,7,0,112,112,112,98,85,127,97,83,128],
  [2,6,8,0,113,113,113,99,86,128,98,84,129],
  [2,5,9,0,114,114,114,100,87,129,99,85,130],
  [2,4,10,0,115,115,115,101,88,130,100,86,131],
  [2,3,11,0,116,116,116,102,89,131,101,87,132],
  [2,2,12,1,117,117,117,103,90,132,102,88,133],
  [2,1,13,1,118,118,118,104,N,133,103,89,134],
  [2,0,14,0,119,119,119,N,N,134,104,90,135],
  [1,15,0,0,120,N,120,105,91,136,N,N,137],
  [1,14,1,2,121,N,121,106,92,137,105,N,138],
  [1,13,2,0,122,N,122,107,93,138,106,91,139],
  [1,12,3,0,123,N,123,108,94,139,107,92,140],
  [1,11,4,0,124,N,124,109,95,140,108,93,141],
  [1,10,5,0,125,N,125,110,96,141,109,94,142],
  [1,9,6,0,126,N,126,111,97,142,110,95,143],
  [1,8,7,0,127,N,127,112,98,143,111,96,144],
  [1,7,8,0,128,N,128,113,99,144,112,97,145],
  [1,6,9,0,129,N,129,114,100,145,113,98,146],
  [1,5,10,0,130,N,130,115,101,146,114,99,147],
  [1,4,11,0,131,N,131,116,102,147,115,100,148],
  [1,3,12,0,132,N,132,117,103,148,116,101,149],
  [1,2,13,0,133,N,133,118,104,149,117,102,150],
  [1,1,14,1,134,N,134,119,N,150,118,103,151],
  [1,0,15,0,135,N,135,N,N,151,119,104,152],
  [0,16,0,1,N,N,136,120,105,153,N,N,154],
  [0,15,1,2,N,N,137,121,106,154,120,N,155],
  [0,14,2,2,N,N,138,122,107,155,121,105,156],
  [0,13,3,2,N,N,139,123,108,156,122,106,157],
  [0,12,4,2,N,N,140,124,109,157,123,107,158],
  [0,11,5,2,N,N,141,125,110,158,124,108,159],
  [0,10,6,2,N,N,142,126,111,159,125,109,160],
  [0,9,7,2,N,N,143,127,112,160,126,110,161],
  [0,8,8,2,N,N,144,128,113,161,127,111,162],
  [0,7,9,1,N,N,145,129,114,162,128,112,163],
  [0,6,10,1,N,N,146,130,115,163,129,113,164],
  [0,5,11,1,N,N,147,131,116,164,130,114,165],
  [0,4,12,1,N,N,148,132,117,165,131,115,166],
  [0,3,13,1,N,N,149,133,118,166,132,116,167],
  [0,2,14,1,N,N,150,134,119,167,133,117,168],
  [0,1,15,1,N,N,151,135,N,168,134,118,169],
  [0,0,16,2,N,N,152,N,N,169,135,119,170]]

def recur17 : List (List ℤ) := [
  [17,0,0,0,0,0,0,N,N,1,N,N,2],
  [16,1,0,1,1,1,1,0,N,3,N,N,4],
  [16,0,1,2,2,2,2,N,N,4,0,N,5],
  [15,2,0,1,3,3,3,1,0,6,N,N,7],
  [15,1,1,2,4,4,4,2,N,7,1,N,8],
  [15,0,2,2,5,5,5,N,N,8,2,0,9],
  [14,3,0,1,6,6,6,3,1,10,N,N,11],
  [14,2,1,2,7,7,7,4,2,11,3,N,12],
  [14,1,2,1,8,8,8,5,N,12,4,1,13],
  [14,0,3,2,9,9,9,N,N,13,5,2,14],
  [13,4,0,1,10,10,10,6,3,15,N,N,16],
  [13,3,1,2,11,11,11,7,4,16,6,N,17],
  [13,2,2,2,12,12,12,8,5,17,7,3,18],
  [13,1,3,1,13,13,13,9,N,18,8,4,19],
  [13,0,4,2,14,14,14,N,N,19,9,5,20],
  [12,5,0,1,15,15,15,10,6,21,N,N,22],
  [12,4,1,2,16,16,16,11,7,22,10,N,23],
  [12,3,2,2,17,17,17,12,8,23,11,6,24],
  [12,2,3,1,18,18,18,13,9,24,12,7,25],
  [12,1,4,1,19,19,19,14,N,25,13,8,26],
  [12,0,5,2,20,20,20,N,N,26,14,9,27],
  [11,6,0,1,21,21,21,15,10,28,N,N,29],
  [11,5,1,2,22,22,22,16,11,29,15,N,30],
  [11,4,2,2,23,23,23,17,12,30,16,10,31],
  [11,3,3,2,24,24,24,18,13,31,17,11,32],
  [11,2,4,1,25,25,25,19,14,32,18,12,33],
  [11,1,5,1,26,26,26,20,N,33,19,13,34],
  [11,0,6,2,27,27,27,N,N,34,20,14,35],
  [10,7,0,1,28,28,28,21,15,36,N,N,37],
  [10,6,1,2,29,29,29,22,16,37,21,N,38],
  [10,5,2,2,30,30,30,23,17,38,22,15,39],
  [10,4,3,2,31,31,31,24,18,39,23,16,40],
  [10,3,4,1,32,32,32,25,19,40,24,17,41],
  [10,2,5,1,33,33,33,26,20,41,25,18,42],
  [10,1,6,1,34,34,34,27,N,42,26,19,43],
  [10,0,7,2,35,35,35,N,N,43,27,20,44],
  [9,8,0,1,36,36,36,28,21,45,N,N,46],
  [9,7,1,2,37,37,37,29,22,46,28,N,47],
  [9,6,2,2,38,38,38,30,23,47,29,21,48],
  [9,5,3,2,39,39,39,31,24,48,30,22,49],
  [9,4,4,2,40,40,40,32,25,49,31,23,50],
  [9,3,5,1,41,41,41,33,26,50,32,24,51],
  [9,2,6,1,42,42,42,34,27,51,33,25,52],
  [9,1,7,1,43,43,43,35,N,52,34,26,53],
  [9,0,8,2,44,44,44,N,N,53,35,27,54],
  [8,9,0,0,45,45,45,36,28,55,N,N,56],
  [8,8,1,2,46,46,46,37,29,56,36,N,57],
  [8,7,2,2,47,47,47,38,30,57,37,28,58],
  [8,6,3,2,48,48,48,39,31,58,38,29,59],
  [8,5,4,2,49,49,49,40,32,59,39,30,60],
  [8,4,5,1,50,50,50,41,33,60,40,31,61],
  [8,3,6,1,51,51,51,42,34,61,41,32,62],
  [8,2,7,1,52,52,52,43,35,62,42,33,63],
  [8,1,8,1,53,53,53,44,N,63,43,34,64],
  [8,0,9,0,54,54,54,N,N,64,44,35,65],
  [7,10,0,0,55,55,55,45,36,66,N,N,67],
  [7,9,1,2,56,56,56,46,37,67,45,N,68],
  [7,8,2,2,57,57,57,47,38,68,46,36,69],
  [7,7,3,2,58,58,58,48,39,69,47,37,70],
  [7,6,4,2,59,59,59,49,40,70,48,38,71],
  [7,5,5,2,60,60,60,50,41,71,49,39,72],
  [7,4,6,1,61,61,61,51,42,72,50,40,73],
  [7,3,7,1,62,62,62,52,43,73,51,41,74],
  [7,2,8,1,63,63,63,53,44,74,52,42,75],
  [7,1,9,1,64,64,64,54,N,75,53,43,76],
  [7,0,10,0,65,65,65,N,N,76,54,44,77],
  [6,11,0,0,66,66,66,55,45,78,N,N,79],
  [6,10,1,2,67,67,67,56,46,79,55,N,80],
  [6,9,2,2,68,68,68,57,47,80,56,45,81],
  [6,8,3,2,69,69,69,58,48,81,57,46,82],
  [6,7,4,2,70,70,70,59,49,82,58,47,83],
  [6,6,5,2,71,71,71,60,50,83,59,48,84],
  [6,5,6,1,72,72,72,61,51,84,60,49,85],
  [6,4,7,1,73,73,73,62,52,85,61,50,86],
  [6,3,8,1,74,74,74,63,53,86,62,51,87],
  [6,2,9,1,75,75,75,64,54,87,63,52,88],
  [6,1,10,1,76,76,76,65,N,88,64,53,89],
  [6,0,11,0,77,77,77,N,N,89,65,54,90],
  [5,12,0,0,78,78,78,66,55,91,N,N,92],
  [5,11,1,2,79,79,79,67,56,92,66,N,93],
  [5,10,2,2,80,80,80,68,57,93,67,55,94],
  [5,9,3,2,81,81,81,69,58,94,68,56,95],
  [5,8,4,2,82,82,82,70,59,95,69,57,96],
  [5,7,5,2,83,83,83,71,60,96,70,58,97],
  [5,6,6,0,84,84,84,72,61,97,71,59,98],
  [5,5,7,1,85,85,85,73,62,98,72,60,99],
  [5,4,8,1,86,86,86,74,63,99,73,61,100],
  [5,3,9,1,87,87,87,75,64,100,74,62,101],
  [5,2,10,1,88,88,88,76,65,101,75,63,102],
  [5,1,11,1,89,89,89,77,N,102,76,64,103],
  [5,0,12,0,90,90,90,N,N,103,77,65,104],
  [4,13,0,0,91,91,91,78,66,105,N,N,106],
  [4,12,1,2,92,92,92,79,67,106,78,N,107],
  [4,11,2,2,93,93,93,80,68,107,79,66,108],
  [4,10,3,2,94,94,94,81,69,108,80,67,109],
  [4,9,4,2,95,95,95,82,70,109,81,68,110],
  [4,8,5,0,96,96,96,83,71,110,82,69,111],
  [4,7,6,0,97,97,97,84,72,111,83,70,112],
  [4,6,7,0,98,98,98,85,73,112,84,71,113],
  [4,5,8,0,99,99,99,86,74,113,85,72,114],
  [4,4,9,1,100,100,100,87,75,114,86,73,115],
  [4,3,10,1,101,101,101,88,76,115,87,74,116],
  [4,2,11,1,102,102,102,89,77,116,88,75,117],
  [4,1,12,1,103,103,103,90,N,117,89,76,118],
  [4,0,13,0,104,104,104,N,N,118,90,77,119],
  [3,14,0,0,105,105,105,91,78,120,N,N,121],
  [3,13,1,2,106,106,106,92,79,121,91,N,122],
  [3,12,2,2,107,107,107,93,80,122,92,78,123],
  [3,11,3,2,108,108,108,94,81,123,93,79,124],
  [3,10,4,0,109,109,109,95,82,124,94,80,125],
  [3,9,5,0,110,110,110,96,83,125,95,81,126],
  [3,8,6,0,111,111,111,97,84,126,96,82,127],
  [3,7,7,0,112,112,112,98,85,127,97,83,128],
  [3,6,8,0,113,113,113,99,86,128,98,84,129],
  [3,5,9,0,114,114,114,100,87,129,99,85,130],
  [3,4,10,0,115,115,115,101,88,130,100,86,131],
  [3,3,11,1,116,116,116,102,89,131,101,87,132],
  [3,2,12,1,117,117,117,103,90,132,102,88,133],
  [3,1,13,1,118,118,118,104,N,133,103,89,134],
  [3,0,14,0,119,119,119,N,N,134,104,90,135],
  [2,15,0,0,120,120,120,105,91,136,N,N,137],
  [2,14,1,2,121,121,121,106,92,137,105,N,138],
  [2,13,2,2,122,122,122,107,93,138,106,91,139],
  [2,12,3,0,123,123,123,108,94,139,107,92,140],
  [2,11,4,0,124,124,124,109,95,140,108,93,141],
  [2,10,5,0,125,125,125,110,96,141,109,94,142],
  [2,9,6,0,126,126,126,111,97,142,110,95,143],
  [2,8,7,0,127,127,127,112,98,143,111,96,144],
  [2,7,8,0,128,128,128,113,99,144,112,97,145],
  [2,6,9,0,129,129,129,114,100,145,113,98,146],
  [2,5,10,0,130,130,130,115,101,146,114,99,147],
  [2,4,11,0,131,131,131,116,102,147,115,100,148],
  [2,3,12,0,132,132,132,117,103,148,116,101,149],
  [2,2,13,1,133,133,133,118,104,149,117,102,150],
  [2,1,14,1,134,134,134,119,N,150,118,103,151],
  [2,0,15,0,135,135,135,N,N,151,119,104,152],
  [1,16,0,0,136,N,136,120,105,153,N,N,154],
  [1,15,1,2,137,N,137,121,106,154,120,N,155],
  [1,14,2,0,138,N,138,122,107,155,121,105,156],
  [1,13,3,0,139,N,139,123,108,156,122,106,157],
  [1,12,4,0,140,N,140,124,109,157,123,107,158],
  [1,11,5,0,141,N,141,125,110,158,124,108,159],
  [1,10,6,0,142,N,142,126,111,159,125,109,160],
  [1,9,7,0,143,N,143,127,112,160,126,110,161],
  [1,8,8,0,144,N,144,128,113,161,127,111,162],
  [1,7,9,0,145,N,145,129,114,162,128,112,163],
  [1,6,10,0,146,N,146,130,115,163,129,113,164],
  [1,5,11,0,147,N,147,131,116,164,130,114,165],
  [1,4,12,0,148,N,148,132,117,165,131,115,166],
  [1,3,13,0,149,N,149,133,118,166,132,116,167],
  [1,2,14,0,150,N,150,134,119,167,133,117,168],
  [1,1,15,1,151,N,151,135,N,168,134,118,169],
  [1,0,16,0,152,N,152,N,N,169,135,119,170],
  [0,17,0,1,N,N,153,136,120,171,N,N,172],
  [0,16,1,2,N,N,154,137,121,172,136,N,173],
  [0,15,2,2,N,N,155,138,122,173,137,120,174],
  [0,14,3,2,N,N,156,139,123,174,138,121,175],
  [0,13,4,2,N,N,157,140,124,175,139,122,176],
  [0,12,5,2,N,N,158,141,125,176,140,123,177],
  [0,11,6,2,N,N,159,142,126,177,141,124,178],
  [0,10,7,2,N,N,160,143,127,178,142,125,179],
  [0,9,8,2,N,N,161,144,128,179,143,126,180],
  [0,8,9,1,N,N,162,145,129,180,144,127,181],
  [0,7,10,1,N,N,163,146,130,181,145,128,182],
  [0,6,11,1,N,N,164,147,131,182,146,129,183],
  [0,5,12,1,N,N,165,148,132,183,147,130,184],
  [0,4,13,1,N,N,166,149,133,184,148,131,185],
  [0,3,14,1,N,N,167,150,134,185,149,132,186],
  [0,2,15,1,N,N,168,151,135,186,150,133,187],
  [0,1,16,1,N,N,169,152,N,187,151,134,188],
  [0,0,17,2,N,N,170,N,N,188,152,135,189]]

def recur18 : List (List ℤ) := [
  [18,0,0,0,0,0,0,N,N,1,N,N,2],
  [17,1,0,1,1,1,1,0,N,3,N,N,4],
  [17,0,1,2,2,2,2,N,N,4,0,N,5],
  [16,2,0,1,3,3,3,1,0,6,N,N,7],
  [16,1,1,2,4,4,4,2,N,7,1,N,8],
  [16,0,2,2,5,5,5,N,N,8,2,0,9],
  [15,3,0,1,6,6,6,3,1,10,N,N,11],
  [15,2,1,2,7,7,7,4,2,11,3,N,12],
  [15,1,2,1,8,8,8,5,N,12,4,1,13],
  [15,0,3,2,9,9,9,N,N,13,5,2,14],
  [14,4,0,1,10,10,10,6,3,15,N,N,16],
  [14,3,1,2,11,11,11,7,4,16,6,N,17],
  [14,2,2,2,12,12,12,8,5,17,7,3,18],
  [14,1,3,1,13,13,13,9,N,18,8,4,19],
  [14,0,4,2,14,14,14,N,N,19,9,5,20],
  [13,5,0,1,15,15,15,10,6,21,N,N,22],
  [13,4,1,2,16,16,16,11,7,22,10,N,23],
  [13,3,2,2,17,17,17,12,8,23,11,6,24],
  [13,2,3,1,18,18,18,13,9,24,12,7,25],
  [13,1,4,1,19,19,19,14,N,25,13,8,26],
  [13,0,5,2,20,20,20,N,N,26,14,9,27],
  [12,6,0,1,21,21,21,15,10,28,N,N,29],
  [12,5,1,2,22,22,22,16,11,29,15,N,30],
  [12,4,2,2,23,23,23,17,12,30,16,10,31],
  [12,3,3,2,24,24,24,18,13,31,17,11,32],
  [12,2,4,1,25,25,25,19,14,32,18,12,33],
  [12,1,5,1,26,26,26,20,N,33,19,13,34],
  [12,0,6,2,27,27,27,N,N,34,20,14,35],
  [11,7,0,1,28,28,28,21,15,36,N,N,37],
  [11,6,1,2,29,29,29,22,16,37,21,N,38],
  [11,5,2,2,30,30,30,23,17,38,22,15,39],
  [11,4,3,2,31,31,31,24,18,39,23,16,40],
  [11,3,4,1,32,32,32,25,19,40,24,17,41],
  [11,2,5,1,33,33,33,26,20,41,25,18,42],
  [11,1,6,1,34,34,34,27,N,42,26,19,43],
  [11,0,7,2,35,35,35,N,N,43,27,20,44],
  [10,8,0,1,36,36,36,28,21,45,N,N,46],
  [10,7,1,2,37,37,37,29,22,46,28,N,47],
  [10,6,2,2,38,38,38,30,23,47,29,21,48],
  [10,5,3,2,39,39,39,31,24,48,30,22,49],
  [10,4,4,2,40,40,40,32,25,49,31,23,50],
  [10,3,5,1,41,41,41,33,26,50,32,24,51],
  [10,2,6,1,42,42,42,34,27,51,33,25,52],
  [10,1,7,1,43,43,43,35,N,52,34,26,53],
  [10,0,8,2,44,44,44,N,N,53,35,27,54],
  [9,9,0,1,45,45,45,36,28,55,N,N,56],
  [9,8,1,2,46,46,46,37,29,56,36,N,57],
  [9,7,2,2,47,47,47,38,30,57,37,28,58],
  [9,6,3,2,48,48,48,39,31,58,38,29,59],
  [9,5,4,2,49,49,49,40,32,59,39,30,60],
  [9,4,5,1,50,50,50,41,33,60,40,31,61],
  [9,3,6,1,51,51,51,42,34,61,41,32,62],
  [9,2,7,1,52,52,52,43,35,62,42,33,63],
  [9,1,8,1,53,53,53,44,N,63,43,34,64],
  [9,0,9,2,54,54,54,N,N,64,44,35,65],
  [8,10,0,0,55,55,55,45,36,66,N,N,67],
  [8,9,1,2,56,56,56,46,37,67,45,N,68],
  [8,8,2,2,57,57,57,47,38,68,46,36,69],
  [8,7,3,2,58,58,58,48,39,69,47,37,70],
  [8,6,4,2,59,59,59,49,40,70,48,38,71],
  [8,5,5,2,60,60,60,50,41,71,49,39,72],
  [8,4,6,1,61,61,61,51,42,72,50,40,73],
  [8,3,7,1,62,62,62,52,43,73,51,41,74],
  [8,2,8,1,63,63,63,53,44,74,52,42,75],
  [8,1,9,1,64,64,64,54,N,75,53,43,76],
  [8,0,10,0,65,65,65,N,N,76,54,44,77],
  [7,11,0,0,66,66,66,55,45,78,N,N,79],
  [7,10,1,2,67,67,67,56,46,79,55,N,80],
  [7,9,2,2,68,68,68,57,47,80,56,45,81],
  [7,8,3,2,69,69,69,58,48,81,57,46,82],
  [7,7,4,2,70,70,70,59,49,82,58,47,83],
  [7,6,5,2,71,71,71,60,50,83,59,48,84],
  [7,5,6,1,72,72,72,61,51,84,60,49,85],
  [7,4,7,1,73,73,73,62,52,85,61,50,86],
  [7,3,8,1,74,74,74,63,53,86,62,51,87],
  [7,2,9,1,75,75,75,64,54,87,63,52,88],
  [7,1,10,1,76,76,76,65,N,88,64,53,89],
  [7,0,11,0,77,77,77,N,N,89,65,54,90],
  [6,12,0,0,78,78,78,66,55,91,N,N,92],
  [6,11,1,2,79,79,79,67,56,92,66,N,93],
  [6,10,2,2,80,80,80,68,57,93,67,55,94],
  [6,9,3,2,81,81,81,69,58,94,68,56,95],
  [6,8,4,2,82,82,82,70,59,95,69,57,96],
  [6,7,5,2,83,83,83,71,60,96,70,58,97],
  [6,6,6,2,84,84,84,72,61,97,71,59,98],
  [6,5,7,1,85,85,85,73,62,98,72,60,99],
  [6,4,8,1,86,86,86,74,63,99,73,61,100],
  [6,3,9,1,87,87,87,75,64,100,74,62,101],
  [6,2,10,1,88,88,88,76,65,101,75,63,102],
  [6,1,11,1,89,89,89,77,N,102,76,64,103],
  [6,0,12,0,90,90,90,N,N,103,77,65,104],
  [5,13,0,0,91,91,91,78,66,105,N,N,106],
  [5,12,1,2,92,92,92,79,67,106,78,N,107],
  [5,11,2,2,93,93,93,80,68,107,79,66,108],
  [5,10,3,2,94,94,94,81,69,108,80,67,109],
  [5,9,4,2,95,95,95,82,70,109,81,68,110],
  [5,8,5,2,96,96,96,83,71,110,82,69,111],
  [5,7,6,0,97,97,97,84,72,111,83,70,112],
  [5,6,7,0,98,98,98,85,73,112,84,71,113],
  [5,5,8,1,99,99,99,86,74,113,85,72,114],
  [5,4,9,1,100,100,100,87,75,114,86,73,115],
  [5,3,10,1,101,101,101,88,76,115,87,74,116],
  [5,2,11,1,102,102,102,89,77,116,88,75,117],
  [5,1,12,1,103,103,103,90,N,117,89,76,118],
  [5,0,13,0,104,104,104,N,N,118,90,77,119],
  [4,14,0,0,105,105,105,91,78,120,N,N,121],
  [4,13,1,2,106,106,106,92,79,121,91,N,122],
  [4,12,2,2,107,107,107,93,80,122,92,78,123],
  [4,11,3,2,108,108,108,94,81,123,93,79,124],
  [4,10,4,2,109,109,109,95,82,124,94,80,125],
  [4,9,5,0,110,110,110,96,83,125,95,81,126],
  [4,8,6,0,111,111,111,97,84,126,96,82,127],
  [4,7,7,0,112,112,112,98,85,127,97,83,128],
  [4,6,8,0,113,113,113,99,86,128,98,84,129],
  [4,5,9,0,114,114,114,100,87,129,99,85,130],
  [4,4,10,1,115,115,115,101,88,130,100,86,131],
  [4,3,11,1,116,116,116,102,89,131,101,87,132],
  [4,2,12,1,117,117,117,103,90,132,102,88,133],
  [4,1,13,1,118,118,118,104,N,133,103,89,134],
  [4,0,14,0,119,119,119,N,N,134,104,90,135],
  [3,15,0,0,120,120,120,105,91,136,N,N,137],
  [3,14,1,2,121,121,121,106,92,137,105,N,138],
  [3,13,2,2,122,122,122,107,93,138,106,91,139],
  [3,12,3,2,123,123,123,108,94,139,107,92,140],
  [3,11,4,0,124,124,124,109,95,140,108,93,141],
  [3,10,5,0,125,125,125,110,96,141,109,94,142],
  [3,9,6,0,126,126,126,111,97,142,110,95,143],
  [3,8,7,0,127,127,127,112,98,143,111,96,144],
  [3,7,8,0,128,128,128,113,99,144,112,97,145],
  [3,6,9,0,129,129,129,114,100,145,113,98,146],
  [3,5,10,0,130,130,130,115,101,146,114,99,147],
  [3,4,11,0,131,131,131,116,102,147,115,100,148],
  [3,3,12,1,132,132,132,117,103,148,116,101,149],
  [3,2,13,1,133,133,133,118,104,149,117,102,150],
  [3,1,14,1,134,134,134,119,N,150,118,103,151],
  [3,0,15,0,135,135,135,N,N,151,119,104,152],
  [2,16,0,0,136,136,136,120,105,153,N,N,154],
  [2,15,1,2,137,137,137,121,106,154,120,N,155],
  [2,14,2,2,138,138,138,122,107,155,121,105,156],
  [2,13,3,0,139,139,139,123,108,156,122,106,157],
  [2,12,4,0,140,140,140,124,109,157,123,107,158],
  [2,11,5,0,141,141,141,125,110,158,124,108,159],
  [2,10,6,0,142,142,142,126,111,159,125,109,160],
  [2,9,7,0,143,143,143,127,112,160,126,110,161],
  [2,8,8,0,144,144,144,128,113,161,127,111,162],
  [2,7,9,0,145,145,145,129,114,162,128,112,163],
  [2,6,10,0,146,146,146,130,115,163,129,113,164],
  [2,5,11,0,147,147,147,131,116,164,130,114,165],
  [2,4,12,0,148,148,148,132,117,165,131,115,166],
  [2,3,13,0,149,149,149,133,118,166,132,116,167],
  [2,2,14,1,150,150,150,134,119,167,133,117,168],
  [2,1,15,1,151,151,151,135,N,168,134,118,169],
  [2,0,16,0,152,152,152,N,N,169,135,119,170],
  [1,17,0,0,153,N,153,136,120,171,N,N,172],
  [1,16,1,2,154,N,154,137,121,172,136,N,173],
  [1,15,2,0,155,N,155,138,122,173,137,120,174],
  [1,14,3,0,156,N,156,139,123,174,138,121,175],
  [1,13,4,0,157,N,157,140,124,175,139,122,176],
  [1,12,5,0,158,N,158,141,125,176,140,123,177],
  [1,11,6,0,159,N,159,142,126,177,141,124,178],
  [1,10,7,0,160,N,160,143,127,178,142,125,179],
  [1,9,8,0,161,N,161,144,128,179,143,126,180],
  [1,8,9,0,162,N,162,145,129,180,144,127,181],
  [1,7,10,0,163,N,163,146,130,181,145,128,182],
  [1,6,11,0,164,N,164,147,131,182,146,129,183],
  [1,5,12,0,165,N,165,148,132,183,147,130,184],
  [1,4,13,0,166,N,166,149,133,184,148,131,185],
  [1,3,14,0,167,N,167,150,134,185,149,132,186],
  [1,2,15,0,168,N,168,151,135,186,150,133,187],
  [1,1,16,1,169,N,169,152,N,187,151,134,188],
  [1,0,17,0,170,N,170,N,N,188,152,135,189],
  [0,18,0,1,N,N,171,153,136,190,N,N,191],
  [0,17,1,2,N,N,172,154,137,191,153,N,192],
  [0,16,2,2,N,N,173,155,138,192,154,136,193],
  [0,15,3,2,N,N,174,156,139,193,155,137,194],
  [0,14,4,2,N,N,175,157,140,194,156,138,195],
  [0,13,5,2,N,N,176,158,141,195,157,139,196],
  [0,12,6,2,N,N,177,159,142,196,158,140,197],
  [0,11,7,2,N,N,178,160,143,197,159,141,198],
  [0,10,8,2,N,N,179,161,144,198,160,142,199],
  [0,9,9,2,N,N,180,162,145,199,161,143,200],
  [0,8,10,1,N,N,181,163,146,200,162,144,201],
  [0,7,11,1,N,N,182,164,147,201,163,145,202],
  [0,6,12,1,N,N,183,165,148,202,164,146,203],
  [0,5,13,1,N,N,184,166,149,203,165,147,204],
  [0,4,14,1,N,N,185,167,150,204,166,148,205],
  [0,3,15,1,N,N,186,168,151,205,167,149,206],
  [0,2,16,1,N,N,187,169,152,206,168,150,207],
  [0,1,17,1,N,N,188,170,N,207,169,151,208],
  [0,0,18,2,N,N,189,N,N,208,170,152,209]]

/-- the rows grouped by angular momentum -/
def recurBlocks : List (List (List ℤ)) := [recur0, recur1, recur2, recur3, recur4, recur5, recur6, recur7, recur8, recur9, recur10, recur11, recur12, recur13, recur14, recur15, recur16, recur17, recur18]

/-- `recurinfo_array` -/
def recurArray : List (List ℤ) := recurBlocks.flatten

/-- `am_recur_map` -/
def amRecurMap : List ℕ := [0, 1, 4, 10, 20, 35, 56, 84, 120, 165, 220, 286, 364, 455, 560, 680, 816, 969, 1140]

end Simint.Tables
