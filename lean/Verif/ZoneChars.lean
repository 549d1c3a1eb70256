import Verif.SchemaData

/-! Generated by tools/zones_gen.py: the table of timezones.py as characters, for proofs about each entry. -/

namespace NJ

def zoneChars0 : List (List Char × List Char) := [(['U', 'T', 'C'], ['U', 'T', 'C']),
  (['A', 'f', 'r', 'i', 'c', 'a', '/', 'A', 'b', 'i', 'd', 'j', 'a', 'n'], ['G', 'M', 'T', '0']),
  (['A', 'f', 'r', 'i', 'c', 'a', '/', 'A', 'c', 'c', 'r', 'a'], ['G', 'M', 'T', '0']),
  (['A', 'f', 'r', 'i', 'c', 'a', '/', 'A', 'd', 'd', 'i', 's', ' ', 'A', 'b', 'a', 'b', 'a'], ['E', 'A', 'T', '-', '3']),
  (['A', 'f', 'r', 'i', 'c', 'a', '/', 'A', 'l', 'g', 'i', 'e', 'r', 's'], ['C', 'E', 'T', '-', '1']),
  (['A', 'f', 'r', 'i', 'c', 'a', '/', 'A', 's', 'm', 'a', 'r', 'a'], ['E', 'A', 'T', '-', '3']),
  (['A', 'f', 'r', 'i', 'c', 'a', '/', 'B', 'a', 'm', 'a', 'k', 'o'], ['G', 'M', 'T', '0']),
  (['A', 'f', 'r', 'i', 'c', 'a', '/', 'B', 'a', 'n', 'g', 'u', 'i'], ['W', 'A', 'T', '-', '1']),
  (['A', 'f', 'r', 'i', 'c', 'a', '/', 'B', 'a', 'n', 'j', 'u', 'l'], ['G', 'M', 'T', '0']),
  (['A', 'f', 'r', 'i', 'c', 'a', '/', 'B', 'i', 's', 's', 'a', 'u'], ['G', 'M', 'T', '0']),
  (['A', 'f', 'r', 'i', 'c', 'a', '/', 'B', 'l', 'a', 'n', 't', 'y', 'r', 'e'], ['C', 'A', 'T', '-', '2']),
  (['A', 'f', 'r', 'i', 'c', 'a', '/', 'B', 'r', 'a', 'z', 'z', 'a', 'v', 'i', 'l', 'l', 'e'], ['W', 'A', 'T', '-', '1']),
  (['A', 'f', 'r', 'i', 'c', 'a', '/', 'B', 'u', 'j', 'u', 'm', 'b', 'u', 'r', 'a'], ['C', 'A', 'T', '-', '2']),
  (['A', 'f', 'r', 'i', 'c', 'a', '/', 'C', 'a', 'i', 'r', 'o'], ['E', 'E', 'T', '-', '2']),
  (['A', 'f', 'r', 'i', 'c', 'a', '/', 'C', 'a', 's', 'a', 'b', 'l', 'a', 'n', 'c', 'a'], ['W', 'E', 'T', '0']),
  (['A', 'f', 'r', 'i', 'c', 'a', '/', 'C', 'e', 'u', 't', 'a'], ['C', 'E', 'T', '-', '1', 'C', 'E', 'S', 'T', ',', 'M', '3', '.', '5', '.', '0', ',', 'M', '1', '0', '.', '5', '.', '0', '/', '3']),
  (['A', 'f', 'r', 'i', 'c', 'a', '/', 'C', 'o', 'n', 'a', 'k', 'r', 'y'], ['G', 'M', 'T', '0']),
  (['A', 'f', 'r', 'i', 'c', 'a', '/', 'D', 'a', 'k', 'a', 'r'], ['G', 'M', 'T', '0']),
  (['A', 'f', 'r', 'i', 'c', 'a', '/', 'D', 'a', 'r', ' ', 'e', 's', ' ', 'S', 'a', 'l', 'a', 'a', 'm'], ['E', 'A', 'T', '-', '3']),
  (['A', 'f', 'r', 'i', 'c', 'a', '/', 'D', 'j', 'i', 'b', 'o', 'u', 't', 'i'], ['E', 'A', 'T', '-', '3']),
  (['A', 'f', 'r', 'i', 'c', 'a', '/', 'D', 'o', 'u', 'a', 'l', 'a'], ['W', 'A', 'T', '-', '1']),
  (['A', 'f', 'r', 'i', 'c', 'a', '/', 'E', 'l', ' ', 'A', 'a', 'i', 'u', 'n'], ['W', 'E', 'T', '0']),
  (['A', 'f', 'r', 'i', 'c', 'a', '/', 'F', 'r', 'e', 'e', 't', 'o', 'w', 'n'], ['G', 'M', 'T', '0']),
  (['A', 'f', 'r', 'i', 'c', 'a', '/', 'G', 'a', 'b', 'o', 'r', 'o', 'n', 'e'], ['C', 'A', 'T', '-', '2']),
  (['A', 'f', 'r', 'i', 'c', 'a', '/', 'H', 'a', 'r', 'a', 'r', 'e'], ['C', 'A', 'T', '-', '2']),
  (['A', 'f', 'r', 'i', 'c', 'a', '/', 'J', 'o', 'h', 'a', 'n', 'n', 'e', 's', 'b', 'u', 'r', 'g'], ['S', 'A', 'S', 'T', '-', '2']),
  (['A', 'f', 'r', 'i', 'c', 'a', '/', 'J', 'u', 'b', 'a'], ['C', 'A', 'T', '-', '2']),
  (['A', 'f', 'r', 'i', 'c', 'a', '/', 'K', 'a', 'm', 'p', 'a', 'l', 'a'], ['E', 'A', 'T', '-', '3']),
  (['A', 'f', 'r', 'i', 'c', 'a', '/', 'K', 'h', 'a', 'r', 't', 'o', 'u', 'm'], ['E', 'A', 'T', '-', '3']),
  (['A', 'f', 'r', 'i', 'c', 'a', '/', 'K', 'i', 'g', 'a', 'l', 'i'], ['C', 'A', 'T', '-', '2']),
  (['A', 'f', 'r', 'i', 'c', 'a', '/', 'K', 'i', 'n', 's', 'h', 'a', 's', 'a'], ['W', 'A', 'T', '-', '1']),
  (['A', 'f', 'r', 'i', 'c', 'a', '/', 'L', 'a', 'g', 'o', 's'], ['W', 'A', 'T', '-', '1']),
  (['A', 'f', 'r', 'i', 'c', 'a', '/', 'L', 'i', 'b', 'r', 'e', 'v', 'i', 'l', 'l', 'e'], ['W', 'A', 'T', '-', '1']),
  (['A', 'f', 'r', 'i', 'c', 'a', '/', 'L', 'o', 'm', 'e'], ['G', 'M', 'T', '0']),
  (['A', 'f', 'r', 'i', 'c', 'a', '/', 'L', 'u', 'a', 'n', 'd', 'a'], ['W', 'A', 'T', '-', '1']),
  (['A', 'f', 'r', 'i', 'c', 'a', '/', 'L', 'u', 'b', 'u', 'm', 'b', 'a', 's', 'h', 'i'], ['C', 'A', 'T', '-', '2']),
  (['A', 'f', 'r', 'i', 'c', 'a', '/', 'L', 'u', 's', 'a', 'k', 'a'], ['C', 'A', 'T', '-', '2']),
  (['A', 'f', 'r', 'i', 'c', 'a', '/', 'M', 'a', 'l', 'a', 'b', 'o'], ['W', 'A', 'T', '-', '1']),
  (['A', 'f', 'r', 'i', 'c', 'a', '/', 'M', 'a', 'p', 'u', 't', 'o'], ['C', 'A', 'T', '-', '2']),
  (['A', 'f', 'r', 'i', 'c', 'a', '/', 'M', 'a', 's', 'e', 'r', 'u'], ['S', 'A', 'S', 'T', '-', '2']),
  (['A', 'f', 'r', 'i', 'c', 'a', '/', 'M', 'b', 'a', 'b', 'a', 'n', 'e'], ['S', 'A', 'S', 'T', '-', '2']),
  (['A', 'f', 'r', 'i', 'c', 'a', '/', 'M', 'o', 'g', 'a', 'd', 'i', 's', 'h', 'u'], ['E', 'A', 'T', '-', '3']),
  (['A', 'f', 'r', 'i', 'c', 'a', '/', 'M', 'o', 'n', 'r', 'o', 'v', 'i', 'a'], ['G', 'M', 'T', '0']),
  (['A', 'f', 'r', 'i', 'c', 'a', '/', 'N', 'a', 'i', 'r', 'o', 'b', 'i'], ['E', 'A', 'T', '-', '3']),
  (['A', 'f', 'r', 'i', 'c', 'a', '/', 'N', 'd', 'j', 'a', 'm', 'e', 'n', 'a'], ['W', 'A', 'T', '-', '1']),
  (['A', 'f', 'r', 'i', 'c', 'a', '/', 'N', 'i', 'a', 'm', 'e', 'y'], ['W', 'A', 'T', '-', '1']),
  (['A', 'f', 'r', 'i', 'c', 'a', '/', 'N', 'o', 'u', 'a', 'k', 'c', 'h', 'o', 't', 't'], ['G', 'M', 'T', '0']),
  (['A', 'f', 'r', 'i', 'c', 'a', '/', 'O', 'u', 'a', 'g', 'a', 'd', 'o', 'u', 'g', 'o', 'u'], ['G', 'M', 'T', '0']),
  (['A', 'f', 'r', 'i', 'c', 'a', '/', 'P', 'o', 'r', 't', 'o', '-', 'N', 'o', 'v', 'o'], ['W', 'A', 'T', '-', '1']),
  (['A', 'f', 'r', 'i', 'c', 'a', '/', 'S', 'a', 'o', ' ', 'T', 'o', 'm', 'e'], ['G', 'M', 'T', '0']),
  (['A', 'f', 'r', 'i', 'c', 'a', '/', 'T', 'r', 'i', 'p', 'o', 'l', 'i'], ['E', 'E', 'T', '-', '2']),
  (['A', 'f', 'r', 'i', 'c', 'a', '/', 'T', 'u', 'n', 'i', 's'], ['C', 'E', 'T', '-', '1']),
  (['A', 'f', 'r', 'i', 'c', 'a', '/', 'W', 'i', 'n', 'd', 'h', 'o', 'e', 'k'], ['W', 'A', 'T', '-', '1', 'W', 'A', 'S', 'T', ',', 'M', '9', '.', '1', '.', '0', ',', 'M', '4', '.', '1', '.', '0']),
  (['A', 'm', 'e', 'r', 'i', 'c', 'a', '/', 'A', 'd', 'a', 'k'], ['H', 'A', 'S', 'T', '1', '0', 'H', 'A', 'D', 'T', ',', 'M', '3', '.', '2', '.', '0', ',', 'M', '1', '1', '.', '1', '.', '0']),
  (['A', 'm', 'e', 'r', 'i', 'c', 'a', '/', 'A', 'n', 'c', 'h', 'o', 'r', 'a', 'g', 'e'], ['A', 'K', 'S', 'T', '9', 'A', 'K', 'D', 'T', ',', 'M', '3', '.', '2', '.', '0', ',', 'M', '1', '1', '.', '1', '.', '0']),
  (['A', 'm', 'e', 'r', 'i', 'c', 'a', '/', 'A', 'n', 'g', 'u', 'i', 'l', 'l', 'a'], ['A', 'S', 'T', '4']),
  (['A', 'm', 'e', 'r', 'i', 'c', 'a', '/', 'A', 'n', 't', 'i', 'g', 'u', 'a'], ['A', 'S', 'T', '4']),
  (['A', 'm', 'e', 'r', 'i', 'c', 'a', '/', 'A', 'r', 'a', 'g', 'u', 'a', 'i', 'n', 'a'], ['B', 'R', 'T', '3']),
  (['A', 'm', 'e', 'r', 'i', 'c', 'a', '/', 'A', 'r', 'g', 'e', 'n', 't', 'i', 'n', 'a', '/', 'B', 'u', 'e', 'n', 'o', 's', ' ', 'A', 'i', 'r', 'e', 's'], ['A', 'R', 'T', '3']),
  (['A', 'm', 'e', 'r', 'i', 'c', 'a', '/', 'A', 'r', 'g', 'e', 'n', 't', 'i', 'n', 'a', '/', 'C', 'a', 't', 'a', 'm', 'a', 'r', 'c', 'a'], ['A', 'R', 'T', '3']),
  (['A', 'm', 'e', 'r', 'i', 'c', 'a', '/', 'A', 'r', 'g', 'e', 'n', 't', 'i', 'n', 'a', '/', 'C', 'o', 'r', 'd', 'o', 'b', 'a'], ['A', 'R', 'T', '3']),
  (['A', 'm', 'e', 'r', 'i', 'c', 'a', '/', 'A', 'r', 'g', 'e', 'n', 't', 'i', 'n', 'a', '/', 'J', 'u', 'j', 'u', 'y'], ['A', 'R', 'T', '3']),
  (['A', 'm', 'e', 'r', 'i', 'c', 'a', '/', 'A', 'r', 'g', 'e', 'n', 't', 'i', 'n', 'a', '/', 'L', 'a', ' ', 'R', 'i', 'o', 'j', 'a'], ['A', 'R', 'T', '3']),
  (['A', 'm', 'e', 'r', 'i', 'c', 'a', '/', 'A', 'r', 'g', 'e', 'n', 't', 'i', 'n', 'a', '/', 'M', 'e', 'n', 'd', 'o', 'z', 'a'], ['A', 'R', 'T', '3']),
  (['A', 'm', 'e', 'r', 'i', 'c', 'a', '/', 'A', 'r', 'g', 'e', 'n', 't', 'i', 'n', 'a', '/', 'R', 'i', 'o', ' ', 'G', 'a', 'l', 'l', 'e', 'g', 'o', 's'], ['A', 'R', 'T', '3']),
  (['A', 'm', 'e', 'r', 'i', 'c', 'a', '/', 'A', 'r', 'g', 'e', 'n', 't', 'i', 'n', 'a', '/', 'S', 'a', 'l', 't', 'a'], ['A', 'R', 'T', '3']),
  (['A', 'm', 'e', 'r', 'i', 'c', 'a', '/', 'A', 'r', 'g', 'e', 'n', 't', 'i', 'n', 'a', '/', 'S', 'a', 'n', ' ', 'J', 'u', 'a', 'n'], ['A', 'R', 'T', '3']),
  (['A', 'm', 'e', 'r', 'i', 'c', 'a', '/', 'A', 'r', 'g', 'e', 'n', 't', 'i', 'n', 'a', '/', 'S', 'a', 'n', ' ', 'L', 'u', 'i', 's'], ['<', '-', '0', '3', '>', '3']),
  (['A', 'm', 'e', 'r', 'i', 'c', 'a', '/', 'A', 'r', 'g', 'e', 'n', 't', 'i', 'n', 'a', '/', 'T', 'u', 'c', 'u', 'm', 'a', 'n'], ['A', 'R', 'T', '3']),
  (['A', 'm', 'e', 'r', 'i', 'c', 'a', '/', 'A', 'r', 'g', 'e', 'n', 't', 'i', 'n', 'a', '/', 'U', 's', 'h', 'u', 'a', 'i', 'a'], ['A', 'R', 'T', '3']),
  (['A', 'm', 'e', 'r', 'i', 'c', 'a', '/', 'A', 'r', 'u', 'b', 'a'], ['A', 'S', 'T', '4']),
  (['A', 'm', 'e', 'r', 'i', 'c', 'a', '/', 'A', 's', 'u', 'n', 'c', 'i', 'o', 'n'], ['P', 'Y', 'T', '4', 'P', 'Y', 'S', 'T', ',', 'M', '1', '0', '.', '1', '.', '0', '/', '0', ',', 'M', '4', '.', '2', '.', '0', '/', '0']),
  (['A', 'm', 'e', 'r', 'i', 'c', 'a', '/', 'A', 't', 'i', 'k', 'o', 'k', 'a', 'n'], ['E', 'S', 'T', '5']),
  (['A', 'm', 'e', 'r', 'i', 'c', 'a', '/', 'B', 'a', 'h', 'i', 'a'], ['B', 'R', 'T', '3']),
  (['A', 'm', 'e', 'r', 'i', 'c', 'a', '/', 'B', 'a', 'h', 'i', 'a', ' ', 'B', 'a', 'n', 'd', 'e', 'r', 'a', 's'], ['C', 'S', 'T', '6', 'C', 'D', 'T', ',', 'M', '4', '.', '1', '.', '0', ',', 'M', '1', '0', '.', '5', '.', '0']),
  (['A', 'm', 'e', 'r', 'i', 'c', 'a', '/', 'B', 'a', 'r', 'b', 'a', 'd', 'o', 's'], ['A', 'S', 'T', '4']),
  (['A', 'm', 'e', 'r', 'i', 'c', 'a', '/', 'B', 'e', 'l', 'e', 'm'], ['B', 'R', 'T', '3']),
  (['A', 'm', 'e', 'r', 'i', 'c', 'a', '/', 'B', 'e', 'l', 'i', 'z', 'e'], ['C', 'S', 'T', '6']),
  (['A', 'm', 'e', 'r', 'i', 'c', 'a', '/', 'B', 'l', 'a', 'n', 'c', '-', 'S', 'a', 'b', 'l', 'o', 'n'], ['A', 'S', 'T', '4']),
  (['A', 'm', 'e', 'r', 'i', 'c', 'a', '/', 'B', 'o', 'a', ' ', 'V', 'i', 's', 't', 'a'], ['A', 'M', 'T', '4']),
  (['A', 'm', 'e', 'r', 'i', 'c', 'a', '/', 'B', 'o', 'g', 'o', 't', 'a'], ['C', 'O', 'T', '5']),
  (['A', 'm', 'e', 'r', 'i', 'c', 'a', '/', 'B', 'o', 'i', 's', 'e'], ['M', 'S', 'T', '7', 'M', 'D', 'T', ',', 'M', '3', '.', '2', '.', '0', ',', 'M', '1', '1', '.', '1', '.', '0']),
  (['A', 'm', 'e', 'r', 'i', 'c', 'a', '/', 'C', 'a', 'm', 'b', 'r', 'i', 'd', 'g', 'e', ' ', 'B', 'a', 'y'], ['M', 'S', 'T', '7', 'M', 'D', 'T', ',', 'M', '3', '.', '2', '.', '0', ',', 'M', '1', '1', '.', '1', '.', '0']),
  (['A', 'm', 'e', 'r', 'i', 'c', 'a', '/', 'C', 'a', 'm', 'p', 'o', ' ', 'G', 'r', 'a', 'n', 'd', 'e'], ['A', 'M', 'T', '4', 'A', 'M', 'S', 'T', ',', 'M', '1', '0', '.', '3', '.', '0', '/', '0', ',', 'M', '2', '.', '3', '.', '0', '/', '0']),
  (['A', 'm', 'e', 'r', 'i', 'c', 'a', '/', 'C', 'a', 'n', 'c', 'u', 'n'], ['C', 'S', 'T', '6', 'C', 'D', 'T', ',', 'M', '4', '.', '1', '.', '0', ',', 'M', '1', '0', '.', '5', '.', '0']),
  (['A', 'm', 'e', 'r', 'i', 'c', 'a', '/', 'C', 'a', 'r', 'a', 'c', 'a', 's'], ['V', 'E', 'T', '4', ':', '3', '0']),
  (['A', 'm', 'e', 'r', 'i', 'c', 'a', '/', 'C', 'a', 'y', 'e', 'n', 'n', 'e'], ['G', 'F', 'T', '3']),
  (['A', 'm', 'e', 'r', 'i', 'c', 'a', '/', 'C', 'a', 'y', 'm', 'a', 'n'], ['E', 'S', 'T', '5']),
  (['A', 'm', 'e', 'r', 'i', 'c', 'a', '/', 'C', 'h', 'i', 'c', 'a', 'g', 'o'], ['C', 'S', 'T', '6', 'C', 'D', 'T', ',', 'M', '3', '.', '2', '.', '0', ',', 'M', '1', '1', '.', '1', '.', '0']),
  (['A', 'm', 'e', 'r', 'i', 'c', 'a', '/', 'C', 'h', 'i', 'h', 'u', 'a', 'h', 'u', 'a'], ['M', 'S', 'T', '7', 'M', 'D', 'T', ',', 'M', '4', '.', '1', '.', '0', ',', 'M', '1', '0', '.', '5', '.', '0']),
  (['A', 'm', 'e', 'r', 'i', 'c', 'a', '/', 'C', 'o', 's', 't', 'a', ' ', 'R', 'i', 'c', 'a'], ['C', 'S', 'T', '6']),
  (['A', 'm', 'e', 'r', 'i', 'c', 'a', '/', 'C', 'r', 'e', 's', 't', 'o', 'n'], ['M', 'S', 'T', '7']),
  (['A', 'm', 'e', 'r', 'i', 'c', 'a', '/', 'C', 'u', 'i', 'a', 'b', 'a'], ['A', 'M', 'T', '4', 'A', 'M', 'S', 'T', ',', 'M', '1', '0', '.', '3', '.', '0', '/', '0', ',', 'M', '2', '.', '3', '.', '0', '/', '0']),
  (['A', 'm', 'e', 'r', 'i', 'c', 'a', '/', 'C', 'u', 'r', 'a', 'c', 'a', 'o'], ['A', 'S', 'T', '4']),
  (['A', 'm', 'e', 'r', 'i', 'c', 'a', '/', 'D', 'a', 'n', 'm', 'a', 'r', 'k', 's', 'h', 'a', 'v', 'n'], ['G', 'M', 'T', '0']),
  (['A', 'm', 'e', 'r', 'i', 'c', 'a', '/', 'D', 'a', 'w', 's', 'o', 'n'], ['P', 'S', 'T', '8', 'P', 'D', 'T', ',', 'M', '3', '.', '2', '.', '0', ',', 'M', '1', '1', '.', '1', '.', '0']),
  (['A', 'm', 'e', 'r', 'i', 'c', 'a', '/', 'D', 'a', 'w', 's', 'o', 'n', ' ', 'C', 'r', 'e', 'e', 'k'], ['M', 'S', 'T', '7']),
  (['A', 'm', 'e', 'r', 'i', 'c', 'a', '/', 'D', 'e', 'n', 'v', 'e', 'r'], ['M', 'S', 'T', '7', 'M', 'D', 'T', ',', 'M', '3', '.', '2', '.', '0', ',', 'M', '1', '1', '.', '1', '.', '0']),
  (['A', 'm', 'e', 'r', 'i', 'c', 'a', '/', 'D', 'e', 't', 'r', 'o', 'i', 't'], ['E', 'S', 'T', '5', 'E', 'D', 'T', ',', 'M', '3', '.', '2', '.', '0', ',', 'M', '1', '1', '.', '1', '.', '0']),
  (['A', 'm', 'e', 'r', 'i', 'c', 'a', '/', 'D', 'o', 'm', 'i', 'n', 'i', 'c', 'a'], ['A', 'S', 'T', '4']),
  (['A', 'm', 'e', 'r', 'i', 'c', 'a', '/', 'E', 'd', 'm', 'o', 'n', 't', 'o', 'n'], ['M', 'S', 'T', '7', 'M', 'D', 'T', ',', 'M', '3', '.', '2', '.', '0', ',', 'M', '1', '1', '.', '1', '.', '0']),
  (['A', 'm', 'e', 'r', 'i', 'c', 'a', '/', 'E', 'i', 'r', 'u', 'n', 'e', 'p', 'e'], ['A', 'M', 'T', '4']),
  (['A', 'm', 'e', 'r', 'i', 'c', 'a', '/', 'E', 'l', ' ', 'S', 'a', 'l', 'v', 'a', 'd', 'o', 'r'], ['C', 'S', 'T', '6']),
  (['A', 'm', 'e', 'r', 'i', 'c', 'a', '/', 'F', 'o', 'r', 't', ' ', 'N', 'e', 'l', 's', 'o', 'n'], ['M', 'S', 'T', '7']),
  (['A', 'm', 'e', 'r', 'i', 'c', 'a', '/', 'F', 'o', 'r', 't', 'a', 'l', 'e', 'z', 'a'], ['B', 'R', 'T', '3']),
  (['A', 'm', 'e', 'r', 'i', 'c', 'a', '/', 'G', 'l', 'a', 'c', 'e', ' ', 'B', 'a', 'y'], ['A', 'S', 'T', '4', 'A', 'D', 'T', ',', 'M', '3', '.', '2', '.', '0', ',', 'M', '1', '1', '.', '1', '.', '0']),
  (['A', 'm', 'e', 'r', 'i', 'c', 'a', '/', 'G', 'o', 'o', 's', 'e', ' ', 'B', 'a', 'y'], ['A', 'S', 'T', '4', 'A', 'D', 'T', ',', 'M', '3', '.', '2', '.', '0', '/', '0', ':', '0', '1', ',', 'M', '1', '1', '.', '1', '.', '0', '/', '0', ':', '0', '1']),
  (['A', 'm', 'e', 'r', 'i', 'c', 'a', '/', 'G', 'r', 'a', 'n', 'd', ' ', 'T', 'u', 'r', 'k'], ['E', 'S', 'T', '5', 'E', 'D', 'T', ',', 'M', '3', '.', '2', '.', '0', ',', 'M', '1', '1', '.', '1', '.', '0']),
  (['A', 'm', 'e', 'r', 'i', 'c', 'a', '/', 'G', 'r', 'e', 'n', 'a', 'd', 'a'], ['A', 'S', 'T', '4']),
  (['A', 'm', 'e', 'r', 'i', 'c', 'a', '/', 'G', 'u', 'a', 'd', 'e', 'l', 'o', 'u', 'p', 'e'], ['A', 'S', 'T', '4']),
  (['A', 'm', 'e', 'r', 'i', 'c', 'a', '/', 'G', 'u', 'a', 't', 'e', 'm', 'a', 'l', 'a'], ['C', 'S', 'T', '6']),
  (['A', 'm', 'e', 'r', 'i', 'c', 'a', '/', 'G', 'u', 'a', 'y', 'a', 'q', 'u', 'i', 'l'], ['E', 'C', 'T', '5']),
  (['A', 'm', 'e', 'r', 'i', 'c', 'a', '/', 'G', 'u', 'y', 'a', 'n', 'a'], ['G', 'Y', 'T', '4']),
  (['A', 'm', 'e', 'r', 'i', 'c', 'a', '/', 'H', 'a', 'l', 'i', 'f', 'a', 'x'], ['A', 'S', 'T', '4', 'A', 'D', 'T', ',', 'M', '3', '.', '2', '.', '0', ',', 'M', '1', '1', '.', '1', '.', '0']),
  (['A', 'm', 'e', 'r', 'i', 'c', 'a', '/', 'H', 'a', 'v', 'a', 'n', 'a'], ['C', 'S', 'T', '5', 'C', 'D', 'T', ',', 'M', '3', '.', '2', '.', '0', '/', '0', ',', 'M', '1', '0', '.', '5', '.', '0', '/', '1']),
  (['A', 'm', 'e', 'r', 'i', 'c', 'a', '/', 'H', 'e', 'r', 'm', 'o', 's', 'i', 'l', 'l', 'o'], ['M', 'S', 'T', '7']),
  (['A', 'm', 'e', 'r', 'i', 'c', 'a', '/', 'I', 'n', 'd', 'i', 'a', 'n', 'a', '/', 'I', 'n', 'd', 'i', 'a', 'n', 'a', 'p', 'o', 'l', 'i', 's'], ['E', 'S', 'T', '5', 'E', 'D', 'T', ',', 'M', '3', '.', '2', '.', '0', ',', 'M', '1', '1', '.', '1', '.', '0']),
  (['A', 'm', 'e', 'r', 'i', 'c', 'a', '/', 'I', 'n', 'd', 'i', 'a', 'n', 'a', '/', 'K', 'n', 'o', 'x'], ['C', 'S', 'T', '6', 'C', 'D', 'T', ',', 'M', '3', '.', '2', '.', '0', ',', 'M', '1', '1', '.', '1', '.', '0']),
  (['A', 'm', 'e', 'r', 'i', 'c', 'a', '/', 'I', 'n', 'd', 'i', 'a', 'n', 'a', '/', 'M', 'a', 'r', 'e', 'n', 'g', 'o'], ['E', 'S', 'T', '5', 'E', 'D', 'T', ',', 'M', '3', '.', '2', '.', '0', ',', 'M', '1', '1', '.', '1', '.', '0']),
  (['A', 'm', 'e', 'r', 'i', 'c', 'a', '/', 'I', 'n', 'd', 'i', 'a', 'n', 'a', '/', 'P', 'e', 't', 'e', 'r', 's', 'b', 'u', 'r', 'g'], ['E', 'S', 'T', '5', 'E', 'D', 'T', ',', 'M', '3', '.', '2', '.', '0', ',', 'M', '1', '1', '.', '1', '.', '0'])]

def zoneChars1 : List (List Char × List Char) := [(['A', 'm', 'e', 'r', 'i', 'c', 'a', '/', 'I', 'n', 'd', 'i', 'a', 'n', 'a', '/', 'T', 'e', 'l', 'l', ' ', 'C', 'i', 't', 'y'], ['C', 'S', 'T', '6', 'C', 'D', 'T', ',', 'M', '3', '.', '2', '.', '0', ',', 'M', '1', '1', '.', '1', '.', '0']),
  (['A', 'm', 'e', 'r', 'i', 'c', 'a', '/', 'I', 'n', 'd', 'i', 'a', 'n', 'a', '/', 'V', 'e', 'v', 'a', 'y'], ['E', 'S', 'T', '5', 'E', 'D', 'T', ',', 'M', '3', '.', '2', '.', '0', ',', 'M', '1', '1', '.', '1', '.', '0']),
  (['A', 'm', 'e', 'r', 'i', 'c', 'a', '/', 'I', 'n', 'd', 'i', 'a', 'n', 'a', '/', 'V', 'i', 'n', 'c', 'e', 'n', 'n', 'e', 's'], ['E', 'S', 'T', '5', 'E', 'D', 'T', ',', 'M', '3', '.', '2', '.', '0', ',', 'M', '1', '1', '.', '1', '.', '0']),
  (['A', 'm', 'e', 'r', 'i', 'c', 'a', '/', 'I', 'n', 'd', 'i', 'a', 'n', 'a', '/', 'W', 'i', 'n', 'a', 'm', 'a', 'c'], ['E', 'S', 'T', '5', 'E', 'D', 'T', ',', 'M', '3', '.', '2', '.', '0', ',', 'M', '1', '1', '.', '1', '.', '0']),
  (['A', 'm', 'e', 'r', 'i', 'c', 'a', '/', 'I', 'n', 'u', 'v', 'i', 'k'], ['M', 'S', 'T', '7', 'M', 'D', 'T', ',', 'M', '3', '.', '2', '.', '0', ',', 'M', '1', '1', '.', '1', '.', '0']),
  (['A', 'm', 'e', 'r', 'i', 'c', 'a', '/', 'I', 'q', 'a', 'l', 'u', 'i', 't'], ['E', 'S', 'T', '5', 'E', 'D', 'T', ',', 'M', '3', '.', '2', '.', '0', ',', 'M', '1', '1', '.', '1', '.', '0']),
  (['A', 'm', 'e', 'r', 'i', 'c', 'a', '/', 'J', 'a', 'm', 'a', 'i', 'c', 'a'], ['E', 'S', 'T', '5']),
  (['A', 'm', 'e', 'r', 'i', 'c', 'a', '/', 'J', 'u', 'n', 'e', 'a', 'u'], ['A', 'K', 'S', 'T', '9', 'A', 'K', 'D', 'T', ',', 'M', '3', '.', '2', '.', '0', ',', 'M', '1', '1', '.', '1', '.', '0']),
  (['A', 'm', 'e', 'r', 'i', 'c', 'a', '/', 'K', 'e', 'n', 't', 'u', 'c', 'k', 'y', '/', 'L', 'o', 'u', 'i', 's', 'v', 'i', 'l', 'l', 'e'], ['E', 'S', 'T', '5', 'E', 'D', 'T', ',', 'M', '3', '.', '2', '.', '0', ',', 'M', '1', '1', '.', '1', '.', '0']),
  (['A', 'm', 'e', 'r', 'i', 'c', 'a', '/', 'K', 'e', 'n', 't', 'u', 'c', 'k', 'y', '/', 'M', 'o', 'n', 't', 'i', 'c', 'e', 'l', 'l', 'o'], ['E', 'S', 'T', '5', 'E', 'D', 'T', ',', 'M', '3', '.', '2', '.', '0', ',', 'M', '1', '1', '.', '1', '.', '0']),
  (['A', 'm', 'e', 'r', 'i', 'c', 'a', '/', 'K', 'r', 'a', 'l', 'e', 'n', 'd', 'i', 'j', 'k'], ['A', 'S', 'T', '4']),
  (['A', 'm', 'e', 'r', 'i', 'c', 'a', '/', 'L', 'a', ' ', 'P', 'a', 'z'], ['B', 'O', 'T', '4']),
  (['A', 'm', 'e', 'r', 'i', 'c', 'a', '/', 'L', 'i', 'm', 'a'], ['P', 'E', 'T', '5']),
  (['A', 'm', 'e', 'r', 'i', 'c', 'a', '/', 'L', 'o', 's', ' ', 'A', 'n', 'g', 'e', 'l', 'e', 's'], ['P', 'S', 'T', '8', 'P', 'D', 'T', ',', 'M', '3', '.', '2', '.', '0', ',', 'M', '1', '1', '.', '1', '.', '0']),
  (['A', 'm', 'e', 'r', 'i', 'c', 'a', '/', 'L', 'o', 'w', 'e', 'r', ' ', 'P', 'r', 'i', 'n', 'c', 'e', 's'], ['A', 'S', 'T', '4']),
  (['A', 'm', 'e', 'r', 'i', 'c', 'a', '/', 'M', 'a', 'c', 'e', 'i', 'o'], ['B', 'R', 'T', '3']),
  (['A', 'm', 'e', 'r', 'i', 'c', 'a', '/', 'M', 'a', 'n', 'a', 'g', 'u', 'a'], ['C', 'S', 'T', '6']),
  (['A', 'm', 'e', 'r', 'i', 'c', 'a', '/', 'M', 'a', 'n', 'a', 'u', 's'], ['A', 'M', 'T', '4']),
  (['A', 'm', 'e', 'r', 'i', 'c', 'a', '/', 'M', 'a', 'r', 'i', 'g', 'o', 't'], ['A', 'S', 'T', '4']),
  (['A', 'm', 'e', 'r', 'i', 'c', 'a', '/', 'M', 'a', 'r', 't', 'i', 'n', 'i', 'q', 'u', 'e'], ['A', 'S', 'T', '4']),
  (['A', 'm', 'e', 'r', 'i', 'c', 'a', '/', 'M', 'a', 't', 'a', 'm', 'o', 'r', 'o', 's'], ['C', 'S', 'T', '6', 'C', 'D', 'T', ',', 'M', '3', '.', '2', '.', '0', ',', 'M', '1', '1', '.', '1', '.', '0']),
  (['A', 'm', 'e', 'r', 'i', 'c', 'a', '/', 'M', 'a', 'z', 'a', 't', 'l', 'a', 'n'], ['M', 'S', 'T', '7', 'M', 'D', 'T', ',', 'M', '4', '.', '1', '.', '0', ',', 'M', '1', '0', '.', '5', '.', '0']),
  (['A', 'm', 'e', 'r', 'i', 'c', 'a', '/', 'M', 'e', 'n', 'o', 'm', 'i', 'n', 'e', 'e'], ['C', 'S', 'T', '6', 'C', 'D', 'T', ',', 'M', '3', '.', '2', '.', '0', ',', 'M', '1', '1', '.', '1', '.', '0']),
  (['A', 'm', 'e', 'r', 'i', 'c', 'a', '/', 'M', 'e', 'r', 'i', 'd', 'a'], ['C', 'S', 'T', '6', 'C', 'D', 'T', ',', 'M', '4', '.', '1', '.', '0', ',', 'M', '1', '0', '.', '5', '.', '0']),
  (['A', 'm', 'e', 'r', 'i', 'c', 'a', '/', 'M', 'e', 't', 'l', 'a', 'k', 'a', 't', 'l', 'a'], ['A', 'K', 'S', 'T', '9', 'A', 'K', 'D', 'T', ',', 'M', '3', '.', '2', '.', '0', ',', 'M', '1', '1', '.', '1', '.', '0']),
  (['A', 'm', 'e', 'r', 'i', 'c', 'a', '/', 'M', 'e', 'x', 'i', 'c', 'o', ' ', 'C', 'i', 't', 'y'], ['C', 'S', 'T', '6', 'C', 'D', 'T', ',', 'M', '4', '.', '1', '.', '0', ',', 'M', '1', '0', '.', '5', '.', '0']),
  (['A', 'm', 'e', 'r', 'i', 'c', 'a', '/', 'M', 'i', 'q', 'u', 'e', 'l', 'o', 'n'], ['P', 'M', 'S', 'T', '3', 'P', 'M', 'D', 'T', ',', 'M', '3', '.', '2', '.', '0', ',', 'M', '1', '1', '.', '1', '.', '0']),
  (['A', 'm', 'e', 'r', 'i', 'c', 'a', '/', 'M', 'o', 'n', 'c', 't', 'o', 'n'], ['A', 'S', 'T', '4', 'A', 'D', 'T', ',', 'M', '3', '.', '2', '.', '0', ',', 'M', '1', '1', '.', '1', '.', '0']),
  (['A', 'm', 'e', 'r', 'i', 'c', 'a', '/', 'M', 'o', 'n', 't', 'e', 'r', 'r', 'e', 'y'], ['C', 'S', 'T', '6', 'C', 'D', 'T', ',', 'M', '4', '.', '1', '.', '0', ',', 'M', '1', '0', '.', '5', '.', '0']),
  (['A', 'm', 'e', 'r', 'i', 'c', 'a', '/', 'M', 'o', 'n', 't', 'e', 'v', 'i', 'd', 'e', 'o'], ['U', 'Y', 'T', '3', 'U', 'Y', 'S', 'T', ',', 'M', '1', '0', '.', '1', '.', '0', ',', 'M', '3', '.', '2', '.', '0']),
  (['A', 'm', 'e', 'r', 'i', 'c', 'a', '/', 'M', 'o', 'n', 't', 'r', 'e', 'a', 'l'], ['E', 'S', 'T', '5', 'E', 'D', 'T', ',', 'M', '3', '.', '2', '.', '0', ',', 'M', '1', '1', '.', '1', '.', '0']),
  (['A', 'm', 'e', 'r', 'i', 'c', 'a', '/', 'M', 'o', 'n', 't', 's', 'e', 'r', 'r', 'a', 't'], ['A', 'S', 'T', '4']),
  (['A', 'm', 'e', 'r', 'i', 'c', 'a', '/', 'N', 'a', 's', 's', 'a', 'u'], ['E', 'S', 'T', '5', 'E', 'D', 'T', ',', 'M', '3', '.', '2', '.', '0', ',', 'M', '1', '1', '.', '1', '.', '0']),
  (['A', 'm', 'e', 'r', 'i', 'c', 'a', '/', 'N', 'e', 'w', ' ', 'Y', 'o', 'r', 'k'], ['E', 'S', 'T', '5', 'E', 'D', 'T', ',', 'M', '3', '.', '2', '.', '0', ',', 'M', '1', '1', '.', '1', '.', '0']),
  (['A', 'm', 'e', 'r', 'i', 'c', 'a', '/', 'N', 'i', 'p', 'i', 'g', 'o', 'n'], ['E', 'S', 'T', '5', 'E', 'D', 'T', ',', 'M', '3', '.', '2', '.', '0', ',', 'M', '1', '1', '.', '1', '.', '0']),
  (['A', 'm', 'e', 'r', 'i', 'c', 'a', '/', 'N', 'o', 'm', 'e'], ['A', 'K', 'S', 'T', '9', 'A', 'K', 'D', 'T', ',', 'M', '3', '.', '2', '.', '0', ',', 'M', '1', '1', '.', '1', '.', '0']),
  (['A', 'm', 'e', 'r', 'i', 'c', 'a', '/', 'N', 'o', 'r', 'o', 'n', 'h', 'a'], ['F', 'N', 'T', '2']),
  (['A', 'm', 'e', 'r', 'i', 'c', 'a', '/', 'N', 'o', 'r', 't', 'h', ' ', 'D', 'a', 'k', 'o', 't', 'a', '/', 'B', 'e', 'u', 'l', 'a', 'h'], ['C', 'S', 'T', '6', 'C', 'D', 'T', ',', 'M', '3', '.', '2', '.', '0', ',', 'M', '1', '1', '.', '1', '.', '0']),
  (['A', 'm', 'e', 'r', 'i', 'c', 'a', '/', 'N', 'o', 'r', 't', 'h', ' ', 'D', 'a', 'k', 'o', 't', 'a', '/', 'C', 'e', 'n', 't', 'e', 'r'], ['C', 'S', 'T', '6', 'C', 'D', 'T', ',', 'M', '3', '.', '2', '.', '0', ',', 'M', '1', '1', '.', '1', '.', '0']),
  (['A', 'm', 'e', 'r', 'i', 'c', 'a', '/', 'N', 'o', 'r', 't', 'h', ' ', 'D', 'a', 'k', 'o', 't', 'a', '/', 'N', 'e', 'w', ' ', 'S', 'a', 'l', 'e', 'm'], ['C', 'S', 'T', '6', 'C', 'D', 'T', ',', 'M', '3', '.', '2', '.', '0', ',', 'M', '1', '1', '.', '1', '.', '0']),
  (['A', 'm', 'e', 'r', 'i', 'c', 'a', '/', 'N', 'u', 'u', 'k'], ['<', '-', '0', '3', '>', '3', '<', '-', '0', '2', '>', ',', 'M', '3', '.', '5', '.', '0', '/', '-', '2', ',', 'M', '1', '0', '.', '5', '.', '0', '/', '-', '1']),
  (['A', 'm', 'e', 'r', 'i', 'c', 'a', '/', 'O', 'j', 'i', 'n', 'a', 'g', 'a'], ['M', 'S', 'T', '7', 'M', 'D', 'T', ',', 'M', '3', '.', '2', '.', '0', ',', 'M', '1', '1', '.', '1', '.', '0']),
  (['A', 'm', 'e', 'r', 'i', 'c', 'a', '/', 'P', 'a', 'n', 'a', 'm', 'a'], ['E', 'S', 'T', '5']),
  (['A', 'm', 'e', 'r', 'i', 'c', 'a', '/', 'P', 'a', 'n', 'g', 'n', 'i', 'r', 't', 'u', 'n', 'g'], ['E', 'S', 'T', '5', 'E', 'D', 'T', ',', 'M', '3', '.', '2', '.', '0', ',', 'M', '1', '1', '.', '1', '.', '0']),
  (['A', 'm', 'e', 'r', 'i', 'c', 'a', '/', 'P', 'a', 'r', 'a', 'm', 'a', 'r', 'i', 'b', 'o'], ['S', 'R', 'T', '3']),
  (['A', 'm', 'e', 'r', 'i', 'c', 'a', '/', 'P', 'h', 'o', 'e', 'n', 'i', 'x'], ['M', 'S', 'T', '7']),
  (['A', 'm', 'e', 'r', 'i', 'c', 'a', '/', 'P', 'o', 'r', 't', ' ', 'o', 'f', ' ', 'S', 'p', 'a', 'i', 'n'], ['A', 'S', 'T', '4']),
  (['A', 'm', 'e', 'r', 'i', 'c', 'a', '/', 'P', 'o', 'r', 't', '-', 'a', 'u', '-', 'P', 'r', 'i', 'n', 'c', 'e'], ['E', 'S', 'T', '5']),
  (['A', 'm', 'e', 'r', 'i', 'c', 'a', '/', 'P', 'o', 'r', 't', 'o', ' ', 'V', 'e', 'l', 'h', 'o'], ['A', 'M', 'T', '4']),
  (['A', 'm', 'e', 'r', 'i', 'c', 'a', '/', 'P', 'u', 'e', 'r', 't', 'o', ' ', 'R', 'i', 'c', 'o'], ['A', 'S', 'T', '4']),
  (['A', 'm', 'e', 'r', 'i', 'c', 'a', '/', 'P', 'u', 'n', 't', 'a', ' ', 'A', 'r', 'e', 'n', 'a', 's'], ['<', '-', '0', '3', '>', '3']),
  (['A', 'm', 'e', 'r', 'i', 'c', 'a', '/', 'R', 'a', 'i', 'n', 'y', ' ', 'R', 'i', 'v', 'e', 'r'], ['C', 'S', 'T', '6', 'C', 'D', 'T', ',', 'M', '3', '.', '2', '.', '0', ',', 'M', '1', '1', '.', '1', '.', '0']),
  (['A', 'm', 'e', 'r', 'i', 'c', 'a', '/', 'R', 'a', 'n', 'k', 'i', 'n', ' ', 'I', 'n', 'l', 'e', 't'], ['C', 'S', 'T', '6', 'C', 'D', 'T', ',', 'M', '3', '.', '2', '.', '0', ',', 'M', '1', '1', '.', '1', '.', '0']),
  (['A', 'm', 'e', 'r', 'i', 'c', 'a', '/', 'R', 'e', 'c', 'i', 'f', 'e'], ['B', 'R', 'T', '3']),
  (['A', 'm', 'e', 'r', 'i', 'c', 'a', '/', 'R', 'e', 'g', 'i', 'n', 'a'], ['C', 'S', 'T', '6']),
  (['A', 'm', 'e', 'r', 'i', 'c', 'a', '/', 'R', 'e', 's', 'o', 'l', 'u', 't', 'e'], ['C', 'S', 'T', '6', 'C', 'D', 'T', ',', 'M', '3', '.', '2', '.', '0', ',', 'M', '1', '1', '.', '1', '.', '0']),
  (['A', 'm', 'e', 'r', 'i', 'c', 'a', '/', 'R', 'i', 'o', ' ', 'B', 'r', 'a', 'n', 'c', 'o'], ['A', 'M', 'T', '4']),
  (['A', 'm', 'e', 'r', 'i', 'c', 'a', '/', 'S', 'a', 'n', 't', 'a', ' ', 'I', 's', 'a', 'b', 'e', 'l'], ['P', 'S', 'T', '8', 'P', 'D', 'T', ',', 'M', '4', '.', '1', '.', '0', ',', 'M', '1', '0', '.', '5', '.', '0']),
  (['A', 'm', 'e', 'r', 'i', 'c', 'a', '/', 'S', 'a', 'n', 't', 'a', 'r', 'e', 'm'], ['B', 'R', 'T', '3']),
  (['A', 'm', 'e', 'r', 'i', 'c', 'a', '/', 'S', 'a', 'n', 't', 'i', 'a', 'g', 'o'], ['<', '-', '0', '4', '>', '4', '<', '-', '0', '3', '>', ',', 'M', '9', '.', '1', '.', '6', '/', '2', '4', ',', 'M', '4', '.', '1', '.', '6', '/', '2', '4']),
  (['A', 'm', 'e', 'r', 'i', 'c', 'a', '/', 'S', 'a', 'n', 't', 'o', ' ', 'D', 'o', 'm', 'i', 'n', 'g', 'o'], ['A', 'S', 'T', '4']),
  (['A', 'm', 'e', 'r', 'i', 'c', 'a', '/', 'S', 'a', 'o', ' ', 'P', 'a', 'u', 'l', 'o'], ['B', 'R', 'T', '3', 'B', 'R', 'S', 'T', ',', 'M', '1', '0', '.', '3', '.', '0', '/', '0', ',', 'M', '2', '.', '3', '.', '0', '/', '0']),
  (['A', 'm', 'e', 'r', 'i', 'c', 'a', '/', 'S', 'c', 'o', 'r', 'e', 's', 'b', 'y', 's', 'u', 'n', 'd'], ['E', 'G', 'T', '1', 'E', 'G', 'S', 'T', ',', 'M', '3', '.', '5', '.', '0', '/', '0', ',', 'M', '1', '0', '.', '5', '.', '0', '/', '1']),
  (['A', 'm', 'e', 'r', 'i', 'c', 'a', '/', 'S', 'i', 't', 'k', 'a'], ['A', 'K', 'S', 'T', '9', 'A', 'K', 'D', 'T', ',', 'M', '3', '.', '2', '.', '0', ',', 'M', '1', '1', '.', '1', '.', '0']),
  (['A', 'm', 'e', 'r', 'i', 'c', 'a', '/', 'S', 'h', 'i', 'p', 'r', 'o', 'c', 'k'], ['M', 'S', 'T', '7', 'M', 'D', 'T', ',', 'M', '3', '.', '2', '.', '0', ',', 'M', '1', '1', '.', '1', '.', '0']),
  (['A', 'm', 'e', 'r', 'i', 'c', 'a', '/', 'S', 't', ' ', 'B', 'a', 'r', 't', 'h', 'e', 'l', 'e', 'm', 'y'], ['A', 'S', 'T', '4']),
  (['A', 'm', 'e', 'r', 'i', 'c', 'a', '/', 'S', 't', ' ', 'J', 'o', 'h', 'n', 's'], ['N', 'S', 'T', '3', ':', '3', '0', 'N', 'D', 'T', ',', 'M', '3', '.', '2', '.', '0', '/', '0', ':', '0', '1', ',', 'M', '1', '1', '.', '1', '.', '0', '/', '0', ':', '0', '1']),
  (['A', 'm', 'e', 'r', 'i', 'c', 'a', '/', 'S', 't', ' ', 'K', 'i', 't', 't', 's'], ['A', 'S', 'T', '4']),
  (['A', 'm', 'e', 'r', 'i', 'c', 'a', '/', 'S', 't', ' ', 'L', 'u', 'c', 'i', 'a'], ['A', 'S', 'T', '4']),
  (['A', 'm', 'e', 'r', 'i', 'c', 'a', '/', 'S', 't', ' ', 'T', 'h', 'o', 'm', 'a', 's'], ['A', 'S', 'T', '4']),
  (['A', 'm', 'e', 'r', 'i', 'c', 'a', '/', 'S', 't', ' ', 'V', 'i', 'n', 'c', 'e', 'n', 't'], ['A', 'S', 'T', '4']),
  (['A', 'm', 'e', 'r', 'i', 'c', 'a', '/', 'S', 'w', 'i', 'f', 't', ' ', 'C', 'u', 'r', 'r', 'e', 'n', 't'], ['C', 'S', 'T', '6']),
  (['A', 'm', 'e', 'r', 'i', 'c', 'a', '/', 'T', 'e', 'g', 'u', 'c', 'i', 'g', 'a', 'l', 'p', 'a'], ['C', 'S', 'T', '6']),
  (['A', 'm', 'e', 'r', 'i', 'c', 'a', '/', 'T', 'h', 'u', 'l', 'e'], ['A', 'S', 'T', '4', 'A', 'D', 'T', ',', 'M', '3', '.', '2', '.', '0', ',', 'M', '1', '1', '.', '1', '.', '0']),
  (['A', 'm', 'e', 'r', 'i', 'c', 'a', '/', 'T', 'h', 'u', 'n', 'd', 'e', 'r', ' ', 'B', 'a', 'y'], ['E', 'S', 'T', '5', 'E', 'D', 'T', ',', 'M', '3', '.', '2', '.', '0', ',', 'M', '1', '1', '.', '1', '.', '0']),
  (['A', 'm', 'e', 'r', 'i', 'c', 'a', '/', 'T', 'i', 'j', 'u', 'a', 'n', 'a'], ['P', 'S', 'T', '8', 'P', 'D', 'T', ',', 'M', '3', '.', '2', '.', '0', ',', 'M', '1', '1', '.', '1', '.', '0']),
  (['A', 'm', 'e', 'r', 'i', 'c', 'a', '/', 'T', 'o', 'r', 'o', 'n', 't', 'o'], ['E', 'S', 'T', '5', 'E', 'D', 'T', ',', 'M', '3', '.', '2', '.', '0', ',', 'M', '1', '1', '.', '1', '.', '0']),
  (['A', 'm', 'e', 'r', 'i', 'c', 'a', '/', 'T', 'o', 'r', 't', 'o', 'l', 'a'], ['A', 'S', 'T', '4']),
  (['A', 'm', 'e', 'r', 'i', 'c', 'a', '/', 'V', 'a', 'n', 'c', 'o', 'u', 'v', 'e', 'r'], ['P', 'S', 'T', '8', 'P', 'D', 'T', ',', 'M', '3', '.', '2', '.', '0', ',', 'M', '1', '1', '.', '1', '.', '0']),
  (['A', 'm', 'e', 'r', 'i', 'c', 'a', '/', 'W', 'h', 'i', 't', 'e', 'h', 'o', 'r', 's', 'e'], ['P', 'S', 'T', '8', 'P', 'D', 'T', ',', 'M', '3', '.', '2', '.', '0', ',', 'M', '1', '1', '.', '1', '.', '0']),
  (['A', 'm', 'e', 'r', 'i', 'c', 'a', '/', 'W', 'i', 'n', 'n', 'i', 'p', 'e', 'g'], ['C', 'S', 'T', '6', 'C', 'D', 'T', ',', 'M', '3', '.', '2', '.', '0', ',', 'M', '1', '1', '.', '1', '.', '0']),
  (['A', 'm', 'e', 'r', 'i', 'c', 'a', '/', 'Y', 'a', 'k', 'u', 't', 'a', 't'], ['A', 'K', 'S', 'T', '9', 'A', 'K', 'D', 'T', ',', 'M', '3', '.', '2', '.', '0', ',', 'M', '1', '1', '.', '1', '.', '0']),
  (['A', 'm', 'e', 'r', 'i', 'c', 'a', '/', 'Y', 'e', 'l', 'l', 'o', 'w', 'k', 'n', 'i', 'f', 'e'], ['M', 'S', 'T', '7', 'M', 'D', 'T', ',', 'M', '3', '.', '2', '.', '0', ',', 'M', '1', '1', '.', '1', '.', '0']),
  (['A', 'n', 't', 'a', 'r', 'c', 't', 'i', 'c', 'a', '/', 'C', 'a', 's', 'e', 'y'], ['W', 'S', 'T', '-', '8']),
  (['A', 'n', 't', 'a', 'r', 'c', 't', 'i', 'c', 'a', '/', 'D', 'a', 'v', 'i', 's'], ['D', 'A', 'V', 'T', '-', '7']),
  (['A', 'n', 't', 'a', 'r', 'c', 't', 'i', 'c', 'a', '/', 'D', 'u', 'm', 'o', 'n', 't', 'D', 'U', 'r', 'v', 'i', 'l', 'l', 'e'], ['D', 'D', 'U', 'T', '-', '1', '0']),
  (['A', 'n', 't', 'a', 'r', 'c', 't', 'i', 'c', 'a', '/', 'M', 'a', 'c', 'q', 'u', 'a', 'r', 'i', 'e'], ['M', 'I', 'S', 'T', '-', '1', '1']),
  (['A', 'n', 't', 'a', 'r', 'c', 't', 'i', 'c', 'a', '/', 'M', 'a', 'w', 's', 'o', 'n'], ['M', 'A', 'W', 'T', '-', '5']),
  (['A', 'n', 't', 'a', 'r', 'c', 't', 'i', 'c', 'a', '/', 'M', 'c', 'M', 'u', 'r', 'd', 'o'], ['N', 'Z', 'S', 'T', '-', '1', '2', 'N', 'Z', 'D', 'T', ',', 'M', '9', '.', '5', '.', '0', ',', 'M', '4', '.', '1', '.', '0', '/', '3']),
  (['A', 'n', 't', 'a', 'r', 'c', 't', 'i', 'c', 'a', '/', 'P', 'a', 'l', 'm', 'e', 'r'], ['<', '-', '0', '3', '>', '3']),
  (['A', 'n', 't', 'a', 'r', 'c', 't', 'i', 'c', 'a', '/', 'R', 'o', 't', 'h', 'e', 'r', 'a'], ['R', 'O', 'T', 'T', '3']),
  (['A', 'n', 't', 'a', 'r', 'c', 't', 'i', 'c', 'a', '/', 'S', 'o', 'u', 't', 'h', ' ', 'P', 'o', 'l', 'e'], ['N', 'Z', 'S', 'T', '-', '1', '2', 'N', 'Z', 'D', 'T', ',', 'M', '9', '.', '5', '.', '0', ',', 'M', '4', '.', '1', '.', '0', '/', '3']),
  (['A', 'n', 't', 'a', 'r', 'c', 't', 'i', 'c', 'a', '/', 'S', 'y', 'o', 'w', 'a'], ['S', 'Y', 'O', 'T', '-', '3']),
  (['A', 'n', 't', 'a', 'r', 'c', 't', 'i', 'c', 'a', '/', 'T', 'r', 'o', 'l', 'l'], ['<', '+', '0', '0', '>', '0', '<', '+', '0', '2', '>', '-', '2', ',', 'M', '3', '.', '5', '.', '0', '/', '1', ',', 'M', '1', '0', '.', '5', '.', '0', '/', '3']),
  (['A', 'n', 't', 'a', 'r', 'c', 't', 'i', 'c', 'a', '/', 'V', 'o', 's', 't', 'o', 'k'], ['V', 'O', 'S', 'T', '-', '6']),
  (['A', 'r', 'c', 't', 'i', 'c', '/', 'L', 'o', 'n', 'g', 'y', 'e', 'a', 'r', 'b', 'y', 'e', 'n'], ['C', 'E', 'T', '-', '1', 'C', 'E', 'S', 'T', ',', 'M', '3', '.', '5', '.', '0', ',', 'M', '1', '0', '.', '5', '.', '0', '/', '3']),
  (['A', 's', 'i', 'a', '/', 'A', 'd', 'e', 'n'], ['A', 'S', 'T', '-', '3']),
  (['A', 's', 'i', 'a', '/', 'A', 'l', 'm', 'a', 't', 'y'], ['A', 'L', 'M', 'T', '-', '6']),
  (['A', 's', 'i', 'a', '/', 'A', 'm', 'm', 'a', 'n'], ['<', '+', '0', '3', '>', '-', '3']),
  (['A', 's', 'i', 'a', '/', 'A', 'n', 'a', 'd', 'y', 'r'], ['A', 'N', 'A', 'T', '-', '1', '1', 'A', 'N', 'A', 'S', 'T', ',', 'M', '3', '.', '5', '.', '0', ',', 'M', '1', '0', '.', '5', '.', '0', '/', '3']),
  (['A', 's', 'i', 'a', '/', 'A', 'q', 't', 'a', 'u'], ['A', 'Q', 'T', 'T', '-', '5']),
  (['A', 's', 'i', 'a', '/', 'A', 'q', 't', 'o', 'b', 'e'], ['A', 'Q', 'T', 'T', '-', '5']),
  (['A', 's', 'i', 'a', '/', 'A', 's', 'h', 'g', 'a', 'b', 'a', 't'], ['T', 'M', 'T', '-', '5']),
  (['A', 's', 'i', 'a', '/', 'A', 't', 'y', 'r', 'a', 'u'], ['<', '+', '0', '5', '>', '-', '5']),
  (['A', 's', 'i', 'a', '/', 'B', 'a', 'g', 'h', 'd', 'a', 'd'], ['A', 'S', 'T', '-', '3']),
  (['A', 's', 'i', 'a', '/', 'B', 'a', 'h', 'r', 'a', 'i', 'n'], ['A', 'S', 'T', '-', '3']),
  (['A', 's', 'i', 'a', '/', 'B', 'a', 'k', 'u'], ['A', 'Z', 'T', '-', '4', 'A', 'Z', 'S', 'T', ',', 'M', '3', '.', '5', '.', '0', '/', '4', ',', 'M', '1', '0', '.', '5', '.', '0', '/', '5']),
  (['A', 's', 'i', 'a', '/', 'B', 'a', 'n', 'g', 'k', 'o', 'k'], ['I', 'C', 'T', '-', '7']),
  (['A', 's', 'i', 'a', '/', 'B', 'a', 'r', 'n', 'a', 'u', 'l'], ['<', '+', '0', '7', '>', '-', '7']),
  (['A', 's', 'i', 'a', '/', 'B', 'e', 'i', 'r', 'u', 't'], ['E', 'E', 'T', '-', '2', 'E', 'E', 'S', 'T', ',', 'M', '3', '.', '5', '.', '0', '/', '0', ',', 'M', '1', '0', '.', '5', '.', '0', '/', '0']),
  (['A', 's', 'i', 'a', '/', 'B', 'i', 's', 'h', 'k', 'e', 'k'], ['K', 'G', 'T', '-', '6']),
  (['A', 's', 'i', 'a', '/', 'B', 'r', 'u', 'n', 'e', 'i'], ['B', 'N', 'T', '-', '8']),
  (['A', 's', 'i', 'a', '/', 'C', 'h', 'i', 't', 'a'], ['<', '+', '0', '9', '>', '-', '9']),
  (['A', 's', 'i', 'a', '/', 'C', 'h', 'o', 'i', 'b', 'a', 'l', 's', 'a', 'n'], ['C', 'H', 'O', 'T', '-', '8']),
  (['A', 's', 'i', 'a', '/', 'C', 'h', 'o', 'n', 'g', 'q', 'i', 'n', 'g'], ['C', 'S', 'T', '-', '8']),
  (['A', 's', 'i', 'a', '/', 'C', 'o', 'l', 'o', 'm', 'b', 'o'], ['I', 'S', 'T', '-', '5', ':', '3', '0']),
  (['A', 's', 'i', 'a', '/', 'D', 'a', 'm', 'a', 's', 'c', 'u', 's'], ['E', 'E', 'T', '-', '2', 'E', 'E', 'S', 'T', ',', 'M', '4', '.', '1', '.', '5', '/', '0', ',', 'M', '1', '0', '.', '5', '.', '5', '/', '0']),
  (['A', 's', 'i', 'a', '/', 'D', 'h', 'a', 'k', 'a'], ['B', 'D', 'T', '-', '6']),
  (['A', 's', 'i', 'a', '/', 'D', 'i', 'l', 'i'], ['T', 'L', 'T', '-', '9']),
  (['A', 's', 'i', 'a', '/', 'D', 'u', 'b', 'a', 'i'], ['G', 'S', 'T', '-', '4'])]

def zoneChars2 : List (List Char × List Char) := [(['A', 's', 'i', 'a', '/', 'D', 'u', 's', 'h', 'a', 'n', 'b', 'e'], ['T', 'J', 'T', '-', '5']),
  (['A', 's', 'i', 'a', '/', 'F', 'a', 'm', 'a', 'g', 'u', 's', 't', 'a'], ['E', 'E', 'T', '-', '2', 'E', 'E', 'S', 'T', ',', 'M', '3', '.', '5', '.', '0', '/', '3', ',', 'M', '1', '0', '.', '5', '.', '0', '/', '4']),
  (['A', 's', 'i', 'a', '/', 'G', 'a', 'z', 'a'], ['E', 'E', 'T', '-', '2', 'E', 'E', 'S', 'T', ',', 'M', '3', '.', '5', '.', '6', '/', '0', ':', '0', '1', ',', 'M', '9', '.', '1', '.', '5']),
  (['A', 's', 'i', 'a', '/', 'H', 'a', 'r', 'b', 'i', 'n'], ['C', 'S', 'T', '-', '8']),
  (['A', 's', 'i', 'a', '/', 'H', 'e', 'b', 'r', 'o', 'n'], ['E', 'E', 'T', '-', '2', 'E', 'E', 'S', 'T', ',', 'M', '3', '.', '4', '.', '4', '/', '5', '0', ',', 'M', '1', '0', '.', '4', '.', '4', '/', '5', '0']),
  (['A', 's', 'i', 'a', '/', 'H', 'o', ' ', 'C', 'h', 'i', ' ', 'M', 'i', 'n', 'h'], ['I', 'C', 'T', '-', '7']),
  (['A', 's', 'i', 'a', '/', 'H', 'o', 'n', 'g', ' ', 'K', 'o', 'n', 'g'], ['H', 'K', 'T', '-', '8']),
  (['A', 's', 'i', 'a', '/', 'H', 'o', 'v', 'd'], ['H', 'O', 'V', 'T', '-', '7']),
  (['A', 's', 'i', 'a', '/', 'I', 'r', 'k', 'u', 't', 's', 'k'], ['I', 'R', 'K', 'T', '-', '8', 'I', 'R', 'K', 'S', 'T', ',', 'M', '3', '.', '5', '.', '0', ',', 'M', '1', '0', '.', '5', '.', '0', '/', '3']),
  (['A', 's', 'i', 'a', '/', 'J', 'a', 'k', 'a', 'r', 't', 'a'], ['W', 'I', 'T', '-', '7']),
  (['A', 's', 'i', 'a', '/', 'J', 'a', 'y', 'a', 'p', 'u', 'r', 'a'], ['E', 'I', 'T', '-', '9']),
  (['A', 's', 'i', 'a', '/', 'J', 'e', 'r', 'u', 's', 'a', 'l', 'e', 'm'], ['I', 'S', 'T', '-', '2', 'I', 'D', 'T', ',', 'M', '3', '.', '4', '.', '4', '/', '2', '6', ',', 'M', '1', '0', '.', '5', '.', '0']),
  (['A', 's', 'i', 'a', '/', 'K', 'a', 'b', 'u', 'l'], ['A', 'F', 'T', '-', '4', ':', '3', '0']),
  (['A', 's', 'i', 'a', '/', 'K', 'a', 'm', 'c', 'h', 'a', 't', 'k', 'a'], ['P', 'E', 'T', 'T', '-', '1', '1', 'P', 'E', 'T', 'S', 'T', ',', 'M', '3', '.', '5', '.', '0', ',', 'M', '1', '0', '.', '5', '.', '0', '/', '3']),
  (['A', 's', 'i', 'a', '/', 'K', 'a', 'r', 'a', 'c', 'h', 'i'], ['P', 'K', 'T', '-', '5']),
  (['A', 's', 'i', 'a', '/', 'K', 'a', 's', 'h', 'g', 'a', 'r'], ['C', 'S', 'T', '-', '8']),
  (['A', 's', 'i', 'a', '/', 'K', 'a', 't', 'h', 'm', 'a', 'n', 'd', 'u'], ['N', 'P', 'T', '-', '5', ':', '4', '5']),
  (['A', 's', 'i', 'a', '/', 'K', 'h', 'a', 'n', 'd', 'y', 'g', 'a'], ['<', '+', '0', '9', '>', '-', '9']),
  (['A', 's', 'i', 'a', '/', 'K', 'o', 'l', 'k', 'a', 't', 'a'], ['I', 'S', 'T', '-', '5', ':', '3', '0']),
  (['A', 's', 'i', 'a', '/', 'K', 'r', 'a', 's', 'n', 'o', 'y', 'a', 'r', 's', 'k'], ['K', 'R', 'A', 'T', '-', '7', 'K', 'R', 'A', 'S', 'T', ',', 'M', '3', '.', '5', '.', '0', ',', 'M', '1', '0', '.', '5', '.', '0', '/', '3']),
  (['A', 's', 'i', 'a', '/', 'K', 'u', 'a', 'l', 'a', ' ', 'L', 'u', 'm', 'p', 'u', 'r'], ['M', 'Y', 'T', '-', '8']),
  (['A', 's', 'i', 'a', '/', 'K', 'u', 'c', 'h', 'i', 'n', 'g'], ['M', 'Y', 'T', '-', '8']),
  (['A', 's', 'i', 'a', '/', 'K', 'u', 'w', 'a', 'i', 't'], ['A', 'S', 'T', '-', '3']),
  (['A', 's', 'i', 'a', '/', 'M', 'a', 'c', 'a', 'u'], ['C', 'S', 'T', '-', '8']),
  (['A', 's', 'i', 'a', '/', 'M', 'a', 'g', 'a', 'd', 'a', 'n'], ['M', 'A', 'G', 'T', '-', '1', '1', 'M', 'A', 'G', 'S', 'T', ',', 'M', '3', '.', '5', '.', '0', ',', 'M', '1', '0', '.', '5', '.', '0', '/', '3']),
  (['A', 's', 'i', 'a', '/', 'M', 'a', 'k', 'a', 's', 's', 'a', 'r'], ['C', 'I', 'T', '-', '8']),
  (['A', 's', 'i', 'a', '/', 'M', 'a', 'n', 'i', 'l', 'a'], ['P', 'H', 'T', '-', '8']),
  (['A', 's', 'i', 'a', '/', 'M', 'u', 's', 'c', 'a', 't'], ['G', 'S', 'T', '-', '4']),
  (['A', 's', 'i', 'a', '/', 'N', 'i', 'c', 'o', 's', 'i', 'a'], ['E', 'E', 'T', '-', '2', 'E', 'E', 'S', 'T', ',', 'M', '3', '.', '5', '.', '0', '/', '3', ',', 'M', '1', '0', '.', '5', '.', '0', '/', '4']),
  (['A', 's', 'i', 'a', '/', 'N', 'o', 'v', 'o', 'k', 'u', 'z', 'n', 'e', 't', 's', 'k'], ['N', 'O', 'V', 'T', '-', '6', 'N', 'O', 'V', 'S', 'T', ',', 'M', '3', '.', '5', '.', '0', ',', 'M', '1', '0', '.', '5', '.', '0', '/', '3']),
  (['A', 's', 'i', 'a', '/', 'N', 'o', 'v', 'o', 's', 'i', 'b', 'i', 'r', 's', 'k'], ['N', 'O', 'V', 'T', '-', '6', 'N', 'O', 'V', 'S', 'T', ',', 'M', '3', '.', '5', '.', '0', ',', 'M', '1', '0', '.', '5', '.', '0', '/', '3']),
  (['A', 's', 'i', 'a', '/', 'O', 'm', 's', 'k'], ['O', 'M', 'S', 'T', '-', '7']),
  (['A', 's', 'i', 'a', '/', 'O', 'r', 'a', 'l'], ['O', 'R', 'A', 'T', '-', '5']),
  (['A', 's', 'i', 'a', '/', 'P', 'h', 'n', 'o', 'm', ' ', 'P', 'e', 'n', 'h'], ['I', 'C', 'T', '-', '7']),
  (['A', 's', 'i', 'a', '/', 'P', 'o', 'n', 't', 'i', 'a', 'n', 'a', 'k'], ['W', 'I', 'T', '-', '7']),
  (['A', 's', 'i', 'a', '/', 'P', 'y', 'o', 'n', 'g', 'y', 'a', 'n', 'g'], ['K', 'S', 'T', '-', '9']),
  (['A', 's', 'i', 'a', '/', 'Q', 'a', 't', 'a', 'r'], ['A', 'S', 'T', '-', '3']),
  (['A', 's', 'i', 'a', '/', 'Q', 'o', 's', 't', 'a', 'n', 'a', 'y'], ['<', '+', '0', '6', '>', '-', '6']),
  (['A', 's', 'i', 'a', '/', 'Q', 'y', 'z', 'y', 'l', 'o', 'r', 'd', 'a'], ['Q', 'Y', 'Z', 'T', '-', '6']),
  (['A', 's', 'i', 'a', '/', 'R', 'a', 'n', 'g', 'o', 'o', 'n'], ['M', 'M', 'T', '-', '6', ':', '3', '0']),
  (['A', 's', 'i', 'a', '/', 'R', 'i', 'y', 'a', 'd', 'h'], ['A', 'S', 'T', '-', '3']),
  (['A', 's', 'i', 'a', '/', 'S', 'a', 'k', 'h', 'a', 'l', 'i', 'n'], ['S', 'A', 'K', 'T', '-', '1', '0', 'S', 'A', 'K', 'S', 'T', ',', 'M', '3', '.', '5', '.', '0', ',', 'M', '1', '0', '.', '5', '.', '0', '/', '3']),
  (['A', 's', 'i', 'a', '/', 'S', 'a', 'm', 'a', 'r', 'k', 'a', 'n', 'd'], ['U', 'Z', 'T', '-', '5']),
  (['A', 's', 'i', 'a', '/', 'S', 'e', 'o', 'u', 'l'], ['K', 'S', 'T', '-', '9']),
  (['A', 's', 'i', 'a', '/', 'S', 'h', 'a', 'n', 'g', 'h', 'a', 'i'], ['C', 'S', 'T', '-', '8']),
  (['A', 's', 'i', 'a', '/', 'S', 'i', 'n', 'g', 'a', 'p', 'o', 'r', 'e'], ['S', 'G', 'T', '-', '8']),
  (['A', 's', 'i', 'a', '/', 'S', 'r', 'e', 'd', 'n', 'e', 'k', 'o', 'l', 'y', 'm', 's', 'k'], ['<', '+', '1', '1', '>', '-', '1', '1']),
  (['A', 's', 'i', 'a', '/', 'T', 'a', 'i', 'p', 'e', 'i'], ['C', 'S', 'T', '-', '8']),
  (['A', 's', 'i', 'a', '/', 'T', 'a', 's', 'h', 'k', 'e', 'n', 't'], ['U', 'Z', 'T', '-', '5']),
  (['A', 's', 'i', 'a', '/', 'T', 'b', 'i', 'l', 'i', 's', 'i'], ['G', 'E', 'T', '-', '4']),
  (['A', 's', 'i', 'a', '/', 'T', 'e', 'h', 'r', 'a', 'n'], ['I', 'R', 'S', 'T', '-', '3', ':', '3', '0', 'I', 'R', 'D', 'T', ',', '8', '0', '/', '0', ',', '2', '6', '4', '/', '0']),
  (['A', 's', 'i', 'a', '/', 'T', 'h', 'i', 'm', 'p', 'h', 'u'], ['B', 'T', 'T', '-', '6']),
  (['A', 's', 'i', 'a', '/', 'T', 'o', 'k', 'y', 'o'], ['J', 'S', 'T', '-', '9']),
  (['A', 's', 'i', 'a', '/', 'T', 'o', 'm', 's', 'k'], ['<', '+', '0', '7', '>', '-', '7']),
  (['A', 's', 'i', 'a', '/', 'U', 'l', 'a', 'a', 'n', 'b', 'a', 'a', 't', 'a', 'r'], ['U', 'L', 'A', 'T', '-', '8']),
  (['A', 's', 'i', 'a', '/', 'U', 'r', 'u', 'm', 'q', 'i'], ['C', 'S', 'T', '-', '8']),
  (['A', 's', 'i', 'a', '/', 'U', 's', 't', '-', 'N', 'e', 'r', 'a'], ['<', '+', '1', '0', '>', '-', '1', '0']),
  (['A', 's', 'i', 'a', '/', 'V', 'i', 'e', 'n', 't', 'i', 'a', 'n', 'e'], ['I', 'C', 'T', '-', '7']),
  (['A', 's', 'i', 'a', '/', 'V', 'l', 'a', 'd', 'i', 'v', 'o', 's', 't', 'o', 'k'], ['V', 'L', 'A', 'T', '-', '1', '0', 'V', 'L', 'A', 'S', 'T', ',', 'M', '3', '.', '5', '.', '0', ',', 'M', '1', '0', '.', '5', '.', '0', '/', '3']),
  (['A', 's', 'i', 'a', '/', 'Y', 'a', 'k', 'u', 't', 's', 'k'], ['Y', 'A', 'K', 'T', '-', '9', 'Y', 'A', 'K', 'S', 'T', ',', 'M', '3', '.', '5', '.', '0', ',', 'M', '1', '0', '.', '5', '.', '0', '/', '3']),
  (['A', 's', 'i', 'a', '/', 'Y', 'a', 'n', 'g', 'o', 'n'], ['<', '+', '0', '6', '3', '0', '>', '-', '6', ':', '3', '0']),
  (['A', 's', 'i', 'a', '/', 'Y', 'e', 'k', 'a', 't', 'e', 'r', 'i', 'n', 'b', 'u', 'r', 'g'], ['Y', 'E', 'K', 'T', '-', '5', 'Y', 'E', 'K', 'S', 'T', ',', 'M', '3', '.', '5', '.', '0', ',', 'M', '1', '0', '.', '5', '.', '0', '/', '3']),
  (['A', 's', 'i', 'a', '/', 'Y', 'e', 'r', 'e', 'v', 'a', 'n'], ['A', 'M', 'T', '-', '4', 'A', 'M', 'S', 'T', ',', 'M', '3', '.', '5', '.', '0', ',', 'M', '1', '0', '.', '5', '.', '0', '/', '3']),
  (['A', 't', 'l', 'a', 'n', 't', 'i', 'c', '/', 'A', 'z', 'o', 'r', 'e', 's'], ['A', 'Z', 'O', 'T', '1', 'A', 'Z', 'O', 'S', 'T', ',', 'M', '3', '.', '5', '.', '0', '/', '0', ',', 'M', '1', '0', '.', '5', '.', '0', '/', '1']),
  (['A', 't', 'l', 'a', 'n', 't', 'i', 'c', '/', 'B', 'e', 'r', 'm', 'u', 'd', 'a'], ['A', 'S', 'T', '4', 'A', 'D', 'T', ',', 'M', '3', '.', '2', '.', '0', ',', 'M', '1', '1', '.', '1', '.', '0']),
  (['A', 't', 'l', 'a', 'n', 't', 'i', 'c', '/', 'C', 'a', 'n', 'a', 'r', 'y'], ['W', 'E', 'T', '0', 'W', 'E', 'S', 'T', ',', 'M', '3', '.', '5', '.', '0', '/', '1', ',', 'M', '1', '0', '.', '5', '.', '0']),
  (['A', 't', 'l', 'a', 'n', 't', 'i', 'c', '/', 'C', 'a', 'p', 'e', ' ', 'V', 'e', 'r', 'd', 'e'], ['C', 'V', 'T', '1']),
  (['A', 't', 'l', 'a', 'n', 't', 'i', 'c', '/', 'F', 'a', 'r', 'o', 'e'], ['W', 'E', 'T', '0', 'W', 'E', 'S', 'T', ',', 'M', '3', '.', '5', '.', '0', '/', '1', ',', 'M', '1', '0', '.', '5', '.', '0']),
  (['A', 't', 'l', 'a', 'n', 't', 'i', 'c', '/', 'M', 'a', 'd', 'e', 'i', 'r', 'a'], ['W', 'E', 'T', '0', 'W', 'E', 'S', 'T', ',', 'M', '3', '.', '5', '.', '0', '/', '1', ',', 'M', '1', '0', '.', '5', '.', '0']),
  (['A', 't', 'l', 'a', 'n', 't', 'i', 'c', '/', 'R', 'e', 'y', 'k', 'j', 'a', 'v', 'i', 'k'], ['G', 'M', 'T', '0']),
  (['A', 't', 'l', 'a', 'n', 't', 'i', 'c', '/', 'S', 'o', 'u', 't', 'h', ' ', 'G', 'e', 'o', 'r', 'g', 'i', 'a'], ['G', 'S', 'T', '2']),
  (['A', 't', 'l', 'a', 'n', 't', 'i', 'c', '/', 'S', 't', ' ', 'H', 'e', 'l', 'e', 'n', 'a'], ['G', 'M', 'T', '0']),
  (['A', 't', 'l', 'a', 'n', 't', 'i', 'c', '/', 'S', 't', 'a', 'n', 'l', 'e', 'y'], ['F', 'K', 'T', '4', 'F', 'K', 'S', 'T', ',', 'M', '9', '.', '1', '.', '0', ',', 'M', '4', '.', '3', '.', '0']),
  (['A', 'u', 's', 't', 'r', 'a', 'l', 'i', 'a', '/', 'A', 'd', 'e', 'l', 'a', 'i', 'd', 'e'], ['C', 'S', 'T', '-', '9', ':', '3', '0', 'C', 'S', 'T', ',', 'M', '1', '0', '.', '1', '.', '0', ',', 'M', '4', '.', '1', '.', '0', '/', '3']),
  (['A', 'u', 's', 't', 'r', 'a', 'l', 'i', 'a', '/', 'B', 'r', 'i', 's', 'b', 'a', 'n', 'e'], ['E', 'S', 'T', '-', '1', '0']),
  (['A', 'u', 's', 't', 'r', 'a', 'l', 'i', 'a', '/', 'B', 'r', 'o', 'k', 'e', 'n', ' ', 'H', 'i', 'l', 'l'], ['C', 'S', 'T', '-', '9', ':', '3', '0', 'C', 'S', 'T', ',', 'M', '1', '0', '.', '1', '.', '0', ',', 'M', '4', '.', '1', '.', '0', '/', '3']),
  (['A', 'u', 's', 't', 'r', 'a', 'l', 'i', 'a', '/', 'C', 'u', 'r', 'r', 'i', 'e'], ['E', 'S', 'T', '-', '1', '0', 'E', 'S', 'T', ',', 'M', '1', '0', '.', '1', '.', '0', ',', 'M', '4', '.', '1', '.', '0', '/', '3']),
  (['A', 'u', 's', 't', 'r', 'a', 'l', 'i', 'a', '/', 'D', 'a', 'r', 'w', 'i', 'n'], ['C', 'S', 'T', '-', '9', ':', '3', '0']),
  (['A', 'u', 's', 't', 'r', 'a', 'l', 'i', 'a', '/', 'E', 'u', 'c', 'l', 'a'], ['C', 'W', 'S', 'T', '-', '8', ':', '4', '5']),
  (['A', 'u', 's', 't', 'r', 'a', 'l', 'i', 'a', '/', 'H', 'o', 'b', 'a', 'r', 't'], ['E', 'S', 'T', '-', '1', '0', 'E', 'S', 'T', ',', 'M', '1', '0', '.', '1', '.', '0', ',', 'M', '4', '.', '1', '.', '0', '/', '3']),
  (['A', 'u', 's', 't', 'r', 'a', 'l', 'i', 'a', '/', 'L', 'i', 'n', 'd', 'e', 'm', 'a', 'n'], ['E', 'S', 'T', '-', '1', '0']),
  (['A', 'u', 's', 't', 'r', 'a', 'l', 'i', 'a', '/', 'L', 'o', 'r', 'd', ' ', 'H', 'o', 'w', 'e'], ['L', 'H', 'S', 'T', '-', '1', '0', ':', '3', '0', 'L', 'H', 'S', 'T', '-', '1', '1', ',', 'M', '1', '0', '.', '1', '.', '0', ',', 'M', '4', '.', '1', '.', '0']),
  (['A', 'u', 's', 't', 'r', 'a', 'l', 'i', 'a', '/', 'M', 'e', 'l', 'b', 'o', 'u', 'r', 'n', 'e'], ['E', 'S', 'T', '-', '1', '0', 'E', 'S', 'T', ',', 'M', '1', '0', '.', '1', '.', '0', ',', 'M', '4', '.', '1', '.', '0', '/', '3']),
  (['A', 'u', 's', 't', 'r', 'a', 'l', 'i', 'a', '/', 'P', 'e', 'r', 't', 'h'], ['W', 'S', 'T', '-', '8']),
  (['A', 'u', 's', 't', 'r', 'a', 'l', 'i', 'a', '/', 'S', 'y', 'd', 'n', 'e', 'y'], ['E', 'S', 'T', '-', '1', '0', 'E', 'S', 'T', ',', 'M', '1', '0', '.', '1', '.', '0', ',', 'M', '4', '.', '1', '.', '0', '/', '3']),
  (['E', 't', 'c', '/', 'G', 'M', 'T'], ['G', 'M', 'T', '0']),
  (['E', 't', 'c', '/', 'G', 'M', 'T', '+', '1'], ['<', '-', '0', '1', '>', '1']),
  (['E', 't', 'c', '/', 'G', 'M', 'T', '+', '1', '0'], ['<', '-', '1', '0', '>', '1', '0']),
  (['E', 't', 'c', '/', 'G', 'M', 'T', '+', '1', '1'], ['<', '-', '1', '1', '>', '1', '1']),
  (['E', 't', 'c', '/', 'G', 'M', 'T', '+', '1', '2'], ['<', '-', '1', '2', '>', '1', '2']),
  (['E', 't', 'c', '/', 'G', 'M', 'T', '+', '2'], ['<', '-', '0', '2', '>', '2']),
  (['E', 't', 'c', '/', 'G', 'M', 'T', '+', '3'], ['<', '-', '0', '3', '>', '3']),
  (['E', 't', 'c', '/', 'G', 'M', 'T', '+', '4'], ['<', '-', '0', '4', '>', '4']),
  (['E', 't', 'c', '/', 'G', 'M', 'T', '+', '5'], ['<', '-', '0', '5', '>', '5']),
  (['E', 't', 'c', '/', 'G', 'M', 'T', '+', '6'], ['<', '-', '0', '6', '>', '6']),
  (['E', 't', 'c', '/', 'G', 'M', 'T', '+', '7'], ['<', '-', '0', '7', '>', '7']),
  (['E', 't', 'c', '/', 'G', 'M', 'T', '+', '8'], ['<', '-', '0', '8', '>', '8']),
  (['E', 't', 'c', '/', 'G', 'M', 'T', '+', '9'], ['<', '-', '0', '9', '>', '9']),
  (['E', 't', 'c', '/', 'G', 'M', 'T', '-', '1'], ['<', '+', '0', '1', '>', '-', '1']),
  (['E', 't', 'c', '/', 'G', 'M', 'T', '-', '1', '0'], ['<', '+', '1', '0', '>', '-', '1', '0']),
  (['E', 't', 'c', '/', 'G', 'M', 'T', '-', '1', '1'], ['<', '+', '1', '1', '>', '-', '1', '1']),
  (['E', 't', 'c', '/', 'G', 'M', 'T', '-', '1', '2'], ['<', '+', '1', '2', '>', '-', '1', '2']),
  (['E', 't', 'c', '/', 'G', 'M', 'T', '-', '1', '3'], ['<', '+', '1', '3', '>', '-', '1', '3']),
  (['E', 't', 'c', '/', 'G', 'M', 'T', '-', '1', '4'], ['<', '+', '1', '4', '>', '-', '1', '4']),
  (['E', 't', 'c', '/', 'G', 'M', 'T', '-', '2'], ['<', '+', '0', '2', '>', '-', '2']),
  (['E', 't', 'c', '/', 'G', 'M', 'T', '-', '3'], ['<', '+', '0', '3', '>', '-', '3']),
  (['E', 't', 'c', '/', 'G', 'M', 'T', '-', '4'], ['<', '+', '0', '4', '>', '-', '4']),
  (['E', 't', 'c', '/', 'G', 'M', 'T', '-', '5'], ['<', '+', '0', '5', '>', '-', '5']),
  (['E', 't', 'c', '/', 'G', 'M', 'T', '-', '6'], ['<', '+', '0', '6', '>', '-', '6']),
  (['E', 't', 'c', '/', 'G', 'M', 'T', '-', '7'], ['<', '+', '0', '7', '>', '-', '7']),
  (['E', 't', 'c', '/', 'G', 'M', 'T', '-', '8'], ['<', '+', '0', '8', '>', '-', '8']),
  (['E', 't', 'c', '/', 'G', 'M', 'T', '-', '9'], ['<', '+', '0', '9', '>', '-', '9']),
  (['E', 'u', 'r', 'o', 'p', 'e', '/', 'A', 'm', 's', 't', 'e', 'r', 'd', 'a', 'm'], ['C', 'E', 'T', '-', '1', 'C', 'E', 'S', 'T', ',', 'M', '3', '.', '5', '.', '0', ',', 'M', '1', '0', '.', '5', '.', '0', '/', '3']),
  (['E', 'u', 'r', 'o', 'p', 'e', '/', 'A', 'n', 'd', 'o', 'r', 'r', 'a'], ['C', 'E', 'T', '-', '1', 'C', 'E', 'S', 'T', ',', 'M', '3', '.', '5', '.', '0', ',', 'M', '1', '0', '.', '5', '.', '0', '/', '3']),
  (['E', 'u', 'r', 'o', 'p', 'e', '/', 'A', 's', 't', 'r', 'a', 'k', 'h', 'a', 'n'], ['<', '+', '0', '4', '>', '-', '4']),
  (['E', 'u', 'r', 'o', 'p', 'e', '/', 'A', 't', 'h', 'e', 'n', 's'], ['E', 'E', 'T', '-', '2', 'E', 'E', 'S', 'T', ',', 'M', '3', '.', '5', '.', '0', '/', '3', ',', 'M', '1', '0', '.', '5', '.', '0', '/', '4']),
  (['E', 'u', 'r', 'o', 'p', 'e', '/', 'B', 'e', 'l', 'g', 'r', 'a', 'd', 'e'], ['C', 'E', 'T', '-', '1', 'C', 'E', 'S', 'T', ',', 'M', '3', '.', '5', '.', '0', ',', 'M', '1', '0', '.', '5', '.', '0', '/', '3']),
  (['E', 'u', 'r', 'o', 'p', 'e', '/', 'B', 'e', 'r', 'l', 'i', 'n'], ['C', 'E', 'T', '-', '1', 'C', 'E', 'S', 'T', ',', 'M', '3', '.', '5', '.', '0', ',', 'M', '1', '0', '.', '5', '.', '0', '/', '3']),
  (['E', 'u', 'r', 'o', 'p', 'e', '/', 'B', 'r', 'a', 't', 'i', 's', 'l', 'a', 'v', 'a'], ['C', 'E', 'T', '-', '1', 'C', 'E', 'S', 'T', ',', 'M', '3', '.', '5', '.', '0', ',', 'M', '1', '0', '.', '5', '.', '0', '/', '3']),
  (['E', 'u', 'r', 'o', 'p', 'e', '/', 'B', 'r', 'u', 's', 's', 'e', 'l', 's'], ['C', 'E', 'T', '-', '1', 'C', 'E', 'S', 'T', ',', 'M', '3', '.', '5', '.', '0', ',', 'M', '1', '0', '.', '5', '.', '0', '/', '3'])]

def zoneChars3 : List (List Char × List Char) := [(['E', 'u', 'r', 'o', 'p', 'e', '/', 'B', 'u', 'c', 'h', 'a', 'r', 'e', 's', 't'], ['E', 'E', 'T', '-', '2', 'E', 'E', 'S', 'T', ',', 'M', '3', '.', '5', '.', '0', '/', '3', ',', 'M', '1', '0', '.', '5', '.', '0', '/', '4']),
  (['E', 'u', 'r', 'o', 'p', 'e', '/', 'B', 'u', 'd', 'a', 'p', 'e', 's', 't'], ['C', 'E', 'T', '-', '1', 'C', 'E', 'S', 'T', ',', 'M', '3', '.', '5', '.', '0', ',', 'M', '1', '0', '.', '5', '.', '0', '/', '3']),
  (['E', 'u', 'r', 'o', 'p', 'e', '/', 'B', 'u', 's', 'i', 'n', 'g', 'e', 'n'], ['C', 'E', 'T', '-', '1', 'C', 'E', 'S', 'T', ',', 'M', '3', '.', '5', '.', '0', ',', 'M', '1', '0', '.', '5', '.', '0', '/', '3']),
  (['E', 'u', 'r', 'o', 'p', 'e', '/', 'C', 'h', 'i', 's', 'i', 'n', 'a', 'u'], ['E', 'E', 'T', '-', '2', 'E', 'E', 'S', 'T', ',', 'M', '3', '.', '5', '.', '0', '/', '3', ',', 'M', '1', '0', '.', '5', '.', '0', '/', '4']),
  (['E', 'u', 'r', 'o', 'p', 'e', '/', 'C', 'o', 'p', 'e', 'n', 'h', 'a', 'g', 'e', 'n'], ['C', 'E', 'T', '-', '1', 'C', 'E', 'S', 'T', ',', 'M', '3', '.', '5', '.', '0', ',', 'M', '1', '0', '.', '5', '.', '0', '/', '3']),
  (['E', 'u', 'r', 'o', 'p', 'e', '/', 'D', 'u', 'b', 'l', 'i', 'n'], ['G', 'M', 'T', '0', 'I', 'S', 'T', ',', 'M', '3', '.', '5', '.', '0', '/', '1', ',', 'M', '1', '0', '.', '5', '.', '0']),
  (['E', 'u', 'r', 'o', 'p', 'e', '/', 'G', 'i', 'b', 'r', 'a', 'l', 't', 'a', 'r'], ['C', 'E', 'T', '-', '1', 'C', 'E', 'S', 'T', ',', 'M', '3', '.', '5', '.', '0', ',', 'M', '1', '0', '.', '5', '.', '0', '/', '3']),
  (['E', 'u', 'r', 'o', 'p', 'e', '/', 'G', 'u', 'e', 'r', 'n', 's', 'e', 'y'], ['G', 'M', 'T', '0', 'B', 'S', 'T', ',', 'M', '3', '.', '5', '.', '0', '/', '1', ',', 'M', '1', '0', '.', '5', '.', '0']),
  (['E', 'u', 'r', 'o', 'p', 'e', '/', 'H', 'e', 'l', 's', 'i', 'n', 'k', 'i'], ['E', 'E', 'T', '-', '2', 'E', 'E', 'S', 'T', ',', 'M', '3', '.', '5', '.', '0', '/', '3', ',', 'M', '1', '0', '.', '5', '.', '0', '/', '4']),
  (['E', 'u', 'r', 'o', 'p', 'e', '/', 'I', 's', 'l', 'e', ' ', 'o', 'f', ' ', 'M', 'a', 'n'], ['G', 'M', 'T', '0', 'B', 'S', 'T', ',', 'M', '3', '.', '5', '.', '0', '/', '1', ',', 'M', '1', '0', '.', '5', '.', '0']),
  (['E', 'u', 'r', 'o', 'p', 'e', '/', 'I', 's', 't', 'a', 'n', 'b', 'u', 'l'], ['E', 'E', 'T', '-', '2', 'E', 'E', 'S', 'T', ',', 'M', '3', '.', '5', '.', '0', '/', '3', ',', 'M', '1', '0', '.', '5', '.', '0', '/', '4']),
  (['E', 'u', 'r', 'o', 'p', 'e', '/', 'J', 'e', 'r', 's', 'e', 'y'], ['G', 'M', 'T', '0', 'B', 'S', 'T', ',', 'M', '3', '.', '5', '.', '0', '/', '1', ',', 'M', '1', '0', '.', '5', '.', '0']),
  (['E', 'u', 'r', 'o', 'p', 'e', '/', 'K', 'a', 'l', 'i', 'n', 'i', 'n', 'g', 'r', 'a', 'd'], ['E', 'E', 'T', '-', '2', 'E', 'E', 'S', 'T', ',', 'M', '3', '.', '5', '.', '0', ',', 'M', '1', '0', '.', '5', '.', '0', '/', '3']),
  (['E', 'u', 'r', 'o', 'p', 'e', '/', 'K', 'i', 'e', 'v'], ['E', 'E', 'T', '-', '2', 'E', 'E', 'S', 'T', ',', 'M', '3', '.', '5', '.', '0', '/', '3', ',', 'M', '1', '0', '.', '5', '.', '0', '/', '4']),
  (['E', 'u', 'r', 'o', 'p', 'e', '/', 'K', 'i', 'r', 'o', 'v'], ['<', '+', '0', '3', '>', '-', '3']),
  (['E', 'u', 'r', 'o', 'p', 'e', '/', 'K', 'y', 'i', 'v'], ['E', 'E', 'T', '-', '2', 'E', 'E', 'S', 'T', ',', 'M', '3', '.', '5', '.', '0', '/', '3', ',', 'M', '1', '0', '.', '5', '.', '0', '/', '4']),
  (['E', 'u', 'r', 'o', 'p', 'e', '/', 'L', 'i', 's', 'b', 'o', 'n'], ['W', 'E', 'T', '0', 'W', 'E', 'S', 'T', ',', 'M', '3', '.', '5', '.', '0', '/', '1', ',', 'M', '1', '0', '.', '5', '.', '0']),
  (['E', 'u', 'r', 'o', 'p', 'e', '/', 'L', 'j', 'u', 'b', 'l', 'j', 'a', 'n', 'a'], ['C', 'E', 'T', '-', '1', 'C', 'E', 'S', 'T', ',', 'M', '3', '.', '5', '.', '0', ',', 'M', '1', '0', '.', '5', '.', '0', '/', '3']),
  (['E', 'u', 'r', 'o', 'p', 'e', '/', 'L', 'o', 'n', 'd', 'o', 'n'], ['G', 'M', 'T', '0', 'B', 'S', 'T', ',', 'M', '3', '.', '5', '.', '0', '/', '1', ',', 'M', '1', '0', '.', '5', '.', '0']),
  (['E', 'u', 'r', 'o', 'p', 'e', '/', 'L', 'u', 'x', 'e', 'm', 'b', 'o', 'u', 'r', 'g'], ['C', 'E', 'T', '-', '1', 'C', 'E', 'S', 'T', ',', 'M', '3', '.', '5', '.', '0', ',', 'M', '1', '0', '.', '5', '.', '0', '/', '3']),
  (['E', 'u', 'r', 'o', 'p', 'e', '/', 'M', 'a', 'd', 'r', 'i', 'd'], ['C', 'E', 'T', '-', '1', 'C', 'E', 'S', 'T', ',', 'M', '3', '.', '5', '.', '0', ',', 'M', '1', '0', '.', '5', '.', '0', '/', '3']),
  (['E', 'u', 'r', 'o', 'p', 'e', '/', 'M', 'a', 'l', 't', 'a'], ['C', 'E', 'T', '-', '1', 'C', 'E', 'S', 'T', ',', 'M', '3', '.', '5', '.', '0', ',', 'M', '1', '0', '.', '5', '.', '0', '/', '3']),
  (['E', 'u', 'r', 'o', 'p', 'e', '/', 'M', 'a', 'r', 'i', 'e', 'h', 'a', 'm', 'n'], ['E', 'E', 'T', '-', '2', 'E', 'E', 'S', 'T', ',', 'M', '3', '.', '5', '.', '0', '/', '3', ',', 'M', '1', '0', '.', '5', '.', '0', '/', '4']),
  (['E', 'u', 'r', 'o', 'p', 'e', '/', 'M', 'i', 'n', 's', 'k'], ['E', 'E', 'T', '-', '2', 'E', 'E', 'S', 'T', ',', 'M', '3', '.', '5', '.', '0', ',', 'M', '1', '0', '.', '5', '.', '0', '/', '3']),
  (['E', 'u', 'r', 'o', 'p', 'e', '/', 'M', 'o', 'n', 'a', 'c', 'o'], ['C', 'E', 'T', '-', '1', 'C', 'E', 'S', 'T', ',', 'M', '3', '.', '5', '.', '0', ',', 'M', '1', '0', '.', '5', '.', '0', '/', '3']),
  (['E', 'u', 'r', 'o', 'p', 'e', '/', 'M', 'o', 's', 'c', 'o', 'w'], ['M', 'S', 'K', '-', '4']),
  (['E', 'u', 'r', 'o', 'p', 'e', '/', 'O', 's', 'l', 'o'], ['C', 'E', 'T', '-', '1', 'C', 'E', 'S', 'T', ',', 'M', '3', '.', '5', '.', '0', ',', 'M', '1', '0', '.', '5', '.', '0', '/', '3']),
  (['E', 'u', 'r', 'o', 'p', 'e', '/', 'P', 'a', 'r', 'i', 's'], ['C', 'E', 'T', '-', '1', 'C', 'E', 'S', 'T', ',', 'M', '3', '.', '5', '.', '0', ',', 'M', '1', '0', '.', '5', '.', '0', '/', '3']),
  (['E', 'u', 'r', 'o', 'p', 'e', '/', 'P', 'o', 'd', 'g', 'o', 'r', 'i', 'c', 'a'], ['C', 'E', 'T', '-', '1', 'C', 'E', 'S', 'T', ',', 'M', '3', '.', '5', '.', '0', ',', 'M', '1', '0', '.', '5', '.', '0', '/', '3']),
  (['E', 'u', 'r', 'o', 'p', 'e', '/', 'P', 'r', 'a', 'g', 'u', 'e'], ['C', 'E', 'T', '-', '1', 'C', 'E', 'S', 'T', ',', 'M', '3', '.', '5', '.', '0', ',', 'M', '1', '0', '.', '5', '.', '0', '/', '3']),
  (['E', 'u', 'r', 'o', 'p', 'e', '/', 'R', 'i', 'g', 'a'], ['E', 'E', 'T', '-', '2', 'E', 'E', 'S', 'T', ',', 'M', '3', '.', '5', '.', '0', '/', '3', ',', 'M', '1', '0', '.', '5', '.', '0', '/', '4']),
  (['E', 'u', 'r', 'o', 'p', 'e', '/', 'R', 'o', 'm', 'e'], ['C', 'E', 'T', '-', '1', 'C', 'E', 'S', 'T', ',', 'M', '3', '.', '5', '.', '0', ',', 'M', '1', '0', '.', '5', '.', '0', '/', '3']),
  (['E', 'u', 'r', 'o', 'p', 'e', '/', 'S', 'a', 'm', 'a', 'r', 'a'], ['S', 'A', 'M', 'T', '-', '3', 'S', 'A', 'M', 'S', 'T', ',', 'M', '3', '.', '5', '.', '0', ',', 'M', '1', '0', '.', '5', '.', '0', '/', '3']),
  (['E', 'u', 'r', 'o', 'p', 'e', '/', 'S', 'a', 'n', ' ', 'M', 'a', 'r', 'i', 'n', 'o'], ['C', 'E', 'T', '-', '1', 'C', 'E', 'S', 'T', ',', 'M', '3', '.', '5', '.', '0', ',', 'M', '1', '0', '.', '5', '.', '0', '/', '3']),
  (['E', 'u', 'r', 'o', 'p', 'e', '/', 'S', 'a', 'r', 'a', 'j', 'e', 'v', 'o'], ['C', 'E', 'T', '-', '1', 'C', 'E', 'S', 'T', ',', 'M', '3', '.', '5', '.', '0', ',', 'M', '1', '0', '.', '5', '.', '0', '/', '3']),
  (['E', 'u', 'r', 'o', 'p', 'e', '/', 'S', 'a', 'r', 'a', 't', 'o', 'v'], ['<', '+', '0', '4', '>', '-', '4']),
  (['E', 'u', 'r', 'o', 'p', 'e', '/', 'S', 'i', 'm', 'f', 'e', 'r', 'o', 'p', 'o', 'l'], ['E', 'E', 'T', '-', '2', 'E', 'E', 'S', 'T', ',', 'M', '3', '.', '5', '.', '0', '/', '3', ',', 'M', '1', '0', '.', '5', '.', '0', '/', '4']),
  (['E', 'u', 'r', 'o', 'p', 'e', '/', 'S', 'k', 'o', 'p', 'j', 'e'], ['C', 'E', 'T', '-', '1', 'C', 'E', 'S', 'T', ',', 'M', '3', '.', '5', '.', '0', ',', 'M', '1', '0', '.', '5', '.', '0', '/', '3']),
  (['E', 'u', 'r', 'o', 'p', 'e', '/', 'S', 'o', 'f', 'i', 'a'], ['E', 'E', 'T', '-', '2', 'E', 'E', 'S', 'T', ',', 'M', '3', '.', '5', '.', '0', '/', '3', ',', 'M', '1', '0', '.', '5', '.', '0', '/', '4']),
  (['E', 'u', 'r', 'o', 'p', 'e', '/', 'S', 't', 'o', 'c', 'k', 'h', 'o', 'l', 'm'], ['C', 'E', 'T', '-', '1', 'C', 'E', 'S', 'T', ',', 'M', '3', '.', '5', '.', '0', ',', 'M', '1', '0', '.', '5', '.', '0', '/', '3']),
  (['E', 'u', 'r', 'o', 'p', 'e', '/', 'T', 'a', 'l', 'l', 'i', 'n', 'n'], ['E', 'E', 'T', '-', '2', 'E', 'E', 'S', 'T', ',', 'M', '3', '.', '5', '.', '0', '/', '3', ',', 'M', '1', '0', '.', '5', '.', '0', '/', '4']),
  (['E', 'u', 'r', 'o', 'p', 'e', '/', 'T', 'i', 'r', 'a', 'n', 'e'], ['C', 'E', 'T', '-', '1', 'C', 'E', 'S', 'T', ',', 'M', '3', '.', '5', '.', '0', ',', 'M', '1', '0', '.', '5', '.', '0', '/', '3']),
  (['E', 'u', 'r', 'o', 'p', 'e', '/', 'U', 'l', 'y', 'a', 'n', 'o', 'v', 's', 'k'], ['<', '+', '0', '4', '>', '-', '4']),
  (['E', 'u', 'r', 'o', 'p', 'e', '/', 'U', 'z', 'h', 'g', 'o', 'r', 'o', 'd'], ['E', 'E', 'T', '-', '2', 'E', 'E', 'S', 'T', ',', 'M', '3', '.', '5', '.', '0', '/', '3', ',', 'M', '1', '0', '.', '5', '.', '0', '/', '4']),
  (['E', 'u', 'r', 'o', 'p', 'e', '/', 'V', 'a', 'd', 'u', 'z'], ['C', 'E', 'T', '-', '1', 'C', 'E', 'S', 'T', ',', 'M', '3', '.', '5', '.', '0', ',', 'M', '1', '0', '.', '5', '.', '0', '/', '3']),
  (['E', 'u', 'r', 'o', 'p', 'e', '/', 'V', 'a', 't', 'i', 'c', 'a', 'n'], ['C', 'E', 'T', '-', '1', 'C', 'E', 'S', 'T', ',', 'M', '3', '.', '5', '.', '0', ',', 'M', '1', '0', '.', '5', '.', '0', '/', '3']),
  (['E', 'u', 'r', 'o', 'p', 'e', '/', 'V', 'i', 'e', 'n', 'n', 'a'], ['C', 'E', 'T', '-', '1', 'C', 'E', 'S', 'T', ',', 'M', '3', '.', '5', '.', '0', ',', 'M', '1', '0', '.', '5', '.', '0', '/', '3']),
  (['E', 'u', 'r', 'o', 'p', 'e', '/', 'V', 'i', 'l', 'n', 'i', 'u', 's'], ['E', 'E', 'T', '-', '2', 'E', 'E', 'S', 'T', ',', 'M', '3', '.', '5', '.', '0', '/', '3', ',', 'M', '1', '0', '.', '5', '.', '0', '/', '4']),
  (['E', 'u', 'r', 'o', 'p', 'e', '/', 'V', 'o', 'l', 'g', 'o', 'g', 'r', 'a', 'd'], ['V', 'O', 'L', 'T', '-', '3', 'V', 'O', 'L', 'S', 'T', ',', 'M', '3', '.', '5', '.', '0', ',', 'M', '1', '0', '.', '5', '.', '0', '/', '3']),
  (['E', 'u', 'r', 'o', 'p', 'e', '/', 'W', 'a', 'r', 's', 'a', 'w'], ['C', 'E', 'T', '-', '1', 'C', 'E', 'S', 'T', ',', 'M', '3', '.', '5', '.', '0', ',', 'M', '1', '0', '.', '5', '.', '0', '/', '3']),
  (['E', 'u', 'r', 'o', 'p', 'e', '/', 'Z', 'a', 'g', 'r', 'e', 'b'], ['C', 'E', 'T', '-', '1', 'C', 'E', 'S', 'T', ',', 'M', '3', '.', '5', '.', '0', ',', 'M', '1', '0', '.', '5', '.', '0', '/', '3']),
  (['E', 'u', 'r', 'o', 'p', 'e', '/', 'Z', 'a', 'p', 'o', 'r', 'o', 'z', 'h', 'y', 'e'], ['E', 'E', 'T', '-', '2', 'E', 'E', 'S', 'T', ',', 'M', '3', '.', '5', '.', '0', '/', '3', ',', 'M', '1', '0', '.', '5', '.', '0', '/', '4']),
  (['E', 'u', 'r', 'o', 'p', 'e', '/', 'Z', 'u', 'r', 'i', 'c', 'h'], ['C', 'E', 'T', '-', '1', 'C', 'E', 'S', 'T', ',', 'M', '3', '.', '5', '.', '0', ',', 'M', '1', '0', '.', '5', '.', '0', '/', '3']),
  (['I', 'n', 'd', 'i', 'a', 'n', '/', 'A', 'n', 't', 'a', 'n', 'a', 'n', 'a', 'r', 'i', 'v', 'o'], ['E', 'A', 'T', '-', '3']),
  (['I', 'n', 'd', 'i', 'a', 'n', '/', 'C', 'h', 'a', 'g', 'o', 's'], ['I', 'O', 'T', '-', '6']),
  (['I', 'n', 'd', 'i', 'a', 'n', '/', 'C', 'h', 'r', 'i', 's', 't', 'm', 'a', 's'], ['C', 'X', 'T', '-', '7']),
  (['I', 'n', 'd', 'i', 'a', 'n', '/', 'C', 'o', 'c', 'o', 's'], ['C', 'C', 'T', '-', '6', ':', '3', '0']),
  (['I', 'n', 'd', 'i', 'a', 'n', '/', 'C', 'o', 'm', 'o', 'r', 'o'], ['E', 'A', 'T', '-', '3']),
  (['I', 'n', 'd', 'i', 'a', 'n', '/', 'K', 'e', 'r', 'g', 'u', 'e', 'l', 'e', 'n'], ['T', 'F', 'T', '-', '5']),
  (['I', 'n', 'd', 'i', 'a', 'n', '/', 'M', 'a', 'h', 'e'], ['S', 'C', 'T', '-', '4']),
  (['I', 'n', 'd', 'i', 'a', 'n', '/', 'M', 'a', 'l', 'd', 'i', 'v', 'e', 's'], ['M', 'V', 'T', '-', '5']),
  (['I', 'n', 'd', 'i', 'a', 'n', '/', 'M', 'a', 'u', 'r', 'i', 't', 'i', 'u', 's'], ['M', 'U', 'T', '-', '4']),
  (['I', 'n', 'd', 'i', 'a', 'n', '/', 'M', 'a', 'y', 'o', 't', 't', 'e'], ['E', 'A', 'T', '-', '3']),
  (['I', 'n', 'd', 'i', 'a', 'n', '/', 'R', 'e', 'u', 'n', 'i', 'o', 'n'], ['R', 'E', 'T', '-', '4']),
  (['P', 'a', 'c', 'i', 'f', 'i', 'c', '/', 'A', 'p', 'i', 'a'], ['W', 'S', 'T', '1', '1']),
  (['P', 'a', 'c', 'i', 'f', 'i', 'c', '/', 'A', 'u', 'c', 'k', 'l', 'a', 'n', 'd'], ['N', 'Z', 'S', 'T', '-', '1', '2', 'N', 'Z', 'D', 'T', ',', 'M', '9', '.', '5', '.', '0', ',', 'M', '4', '.', '1', '.', '0', '/', '3']),
  (['P', 'a', 'c', 'i', 'f', 'i', 'c', '/', 'B', 'o', 'u', 'g', 'a', 'i', 'n', 'v', 'i', 'l', 'l', 'e'], ['<', '+', '1', '1', '>', '-', '1', '1']),
  (['P', 'a', 'c', 'i', 'f', 'i', 'c', '/', 'C', 'h', 'a', 't', 'h', 'a', 'm'], ['C', 'H', 'A', 'S', 'T', '-', '1', '2', ':', '4', '5', 'C', 'H', 'A', 'D', 'T', ',', 'M', '9', '.', '5', '.', '0', '/', '2', ':', '4', '5', ',', 'M', '4', '.', '1', '.', '0', '/', '3', ':', '4', '5']),
  (['P', 'a', 'c', 'i', 'f', 'i', 'c', '/', 'C', 'h', 'u', 'u', 'k'], ['<', '+', '1', '0', '>', '-', '1', '0']),
  (['P', 'a', 'c', 'i', 'f', 'i', 'c', '/', 'E', 'a', 's', 't', 'e', 'r'], ['<', '-', '0', '6', '>', '6', '<', '-', '0', '5', '>', ',', 'M', '9', '.', '1', '.', '6', '/', '2', '2', ',', 'M', '4', '.', '1', '.', '6', '/', '2', '2']),
  (['P', 'a', 'c', 'i', 'f', 'i', 'c', '/', 'E', 'f', 'a', 't', 'e'], ['V', 'U', 'T', '-', '1', '1']),
  (['P', 'a', 'c', 'i', 'f', 'i', 'c', '/', 'E', 'n', 'd', 'e', 'r', 'b', 'u', 'r', 'y'], ['P', 'H', 'O', 'T', '-', '1', '3']),
  (['P', 'a', 'c', 'i', 'f', 'i', 'c', '/', 'F', 'a', 'k', 'a', 'o', 'f', 'o'], ['T', 'K', 'T', '1', '0']),
  (['P', 'a', 'c', 'i', 'f', 'i', 'c', '/', 'F', 'i', 'j', 'i'], ['F', 'J', 'T', '-', '1', '2']),
  (['P', 'a', 'c', 'i', 'f', 'i', 'c', '/', 'F', 'u', 'n', 'a', 'f', 'u', 't', 'i'], ['T', 'V', 'T', '-', '1', '2']),
  (['P', 'a', 'c', 'i', 'f', 'i', 'c', '/', 'G', 'a', 'l', 'a', 'p', 'a', 'g', 'o', 's'], ['G', 'A', 'L', 'T', '6']),
  (['P', 'a', 'c', 'i', 'f', 'i', 'c', '/', 'G', 'a', 'm', 'b', 'i', 'e', 'r'], ['G', 'A', 'M', 'T', '9']),
  (['P', 'a', 'c', 'i', 'f', 'i', 'c', '/', 'G', 'u', 'a', 'd', 'a', 'l', 'c', 'a', 'n', 'a', 'l'], ['S', 'B', 'T', '-', '1', '1']),
  (['P', 'a', 'c', 'i', 'f', 'i', 'c', '/', 'G', 'u', 'a', 'm'], ['C', 'h', 'S', 'T', '-', '1', '0']),
  (['P', 'a', 'c', 'i', 'f', 'i', 'c', '/', 'H', 'o', 'n', 'o', 'l', 'u', 'l', 'u'], ['H', 'S', 'T', '1', '0']),
  (['P', 'a', 'c', 'i', 'f', 'i', 'c', '/', 'J', 'o', 'h', 'n', 's', 't', 'o', 'n'], ['H', 'S', 'T', '1', '0']),
  (['P', 'a', 'c', 'i', 'f', 'i', 'c', '/', 'K', 'a', 'n', 't', 'o', 'n'], ['<', '+', '1', '3', '>', '-', '1', '3']),
  (['P', 'a', 'c', 'i', 'f', 'i', 'c', '/', 'K', 'i', 'r', 'i', 't', 'i', 'm', 'a', 't', 'i'], ['L', 'I', 'N', 'T', '-', '1', '4']),
  (['P', 'a', 'c', 'i', 'f', 'i', 'c', '/', 'K', 'o', 's', 'r', 'a', 'e'], ['K', 'O', 'S', 'T', '-', '1', '1']),
  (['P', 'a', 'c', 'i', 'f', 'i', 'c', '/', 'K', 'w', 'a', 'j', 'a', 'l', 'e', 'i', 'n'], ['M', 'H', 'T', '-', '1', '2']),
  (['P', 'a', 'c', 'i', 'f', 'i', 'c', '/', 'M', 'a', 'j', 'u', 'r', 'o'], ['M', 'H', 'T', '-', '1', '2']),
  (['P', 'a', 'c', 'i', 'f', 'i', 'c', '/', 'M', 'a', 'r', 'q', 'u', 'e', 's', 'a', 's'], ['M', 'A', 'R', 'T', '9', ':', '3', '0']),
  (['P', 'a', 'c', 'i', 'f', 'i', 'c', '/', 'M', 'i', 'd', 'w', 'a', 'y'], ['S', 'S', 'T', '1', '1']),
  (['P', 'a', 'c', 'i', 'f', 'i', 'c', '/', 'N', 'a', 'u', 'r', 'u'], ['N', 'R', 'T', '-', '1', '2']),
  (['P', 'a', 'c', 'i', 'f', 'i', 'c', '/', 'N', 'i', 'u', 'e'], ['N', 'U', 'T', '1', '1']),
  (['P', 'a', 'c', 'i', 'f', 'i', 'c', '/', 'N', 'o', 'r', 'f', 'o', 'l', 'k'], ['N', 'F', 'T', '-', '1', '1', ':', '3', '0']),
  (['P', 'a', 'c', 'i', 'f', 'i', 'c', '/', 'N', 'o', 'u', 'm', 'e', 'a'], ['N', 'C', 'T', '-', '1', '1']),
  (['P', 'a', 'c', 'i', 'f', 'i', 'c', '/', 'P', 'a', 'g', 'o', ' ', 'P', 'a', 'g', 'o'], ['S', 'S', 'T', '1', '1']),
  (['P', 'a', 'c', 'i', 'f', 'i', 'c', '/', 'P', 'a', 'l', 'a', 'u'], ['P', 'W', 'T', '-', '9']),
  (['P', 'a', 'c', 'i', 'f', 'i', 'c', '/', 'P', 'i', 't', 'c', 'a', 'i', 'r', 'n'], ['P', 'S', 'T', '8']),
  (['P', 'a', 'c', 'i', 'f', 'i', 'c', '/', 'P', 'o', 'h', 'n', 'p', 'e', 'i'], ['<', '+', '1', '1', '>', '-', '1', '1']),
  (['P', 'a', 'c', 'i', 'f', 'i', 'c', '/', 'P', 'o', 'n', 'a', 'p', 'e'], ['P', 'O', 'N', 'T', '-', '1', '1']),
  (['P', 'a', 'c', 'i', 'f', 'i', 'c', '/', 'P', 'o', 'r', 't', ' ', 'M', 'o', 'r', 'e', 's', 'b', 'y'], ['P', 'G', 'T', '-', '1', '0']),
  (['P', 'a', 'c', 'i', 'f', 'i', 'c', '/', 'R', 'a', 'r', 'o', 't', 'o', 'n', 'g', 'a'], ['C', 'K', 'T', '1', '0']),
  (['P', 'a', 'c', 'i', 'f', 'i', 'c', '/', 'S', 'a', 'i', 'p', 'a', 'n'], ['C', 'h', 'S', 'T', '-', '1', '0']),
  (['P', 'a', 'c', 'i', 'f', 'i', 'c', '/', 'T', 'a', 'h', 'i', 't', 'i'], ['T', 'A', 'H', 'T', '1', '0']),
  (['P', 'a', 'c', 'i', 'f', 'i', 'c', '/', 'T', 'a', 'r', 'a', 'w', 'a'], ['G', 'I', 'L', 'T', '-', '1', '2']),
  (['P', 'a', 'c', 'i', 'f', 'i', 'c', '/', 'T', 'o', 'n', 'g', 'a', 't', 'a', 'p', 'u'], ['T', 'O', 'T', '-', '1', '3']),
  (['P', 'a', 'c', 'i', 'f', 'i', 'c', '/', 'T', 'r', 'u', 'k'], ['T', 'R', 'U', 'T', '-', '1', '0']),
  (['P', 'a', 'c', 'i', 'f', 'i', 'c', '/', 'W', 'a', 'k', 'e'], ['W', 'A', 'K', 'T', '-', '1', '2']),
  (['P', 'a', 'c', 'i', 'f', 'i', 'c', '/', 'W', 'a', 'l', 'l', 'i', 's'], ['W', 'F', 'T', '-', '1', '2'])]

/-- the characters of `timezones` -/
def zoneChars : List (List Char × List Char) := zoneChars0 ++ zoneChars1 ++ zoneChars2 ++ zoneChars3

def zoneCodes0 : List Nat := [5592131,
  1326473305511451253955253552963950,
  20240376365836353362370720353,
  5697159466188699689245357519362924960899681,
  1326473305511451253966240162869875,
  5181536349654106460835790549601,
  5181536349654106461857992764271,
  5181536349654106461858009937257,
  5181536349654106461858010133868,
  5181536349654106461892454343029,
  339577166210931521087408500389802597,
  5697159466188699690520342356526627528928357,
  86931754549998469399027635387052159585,
  20240376365836353370927493743,
  22254529164799608170505149137275600135009,
  20240376365836353370995389537,
  1326473305511451254532518582121081,
  20240376365836353375222587762,
  373369042776142623071156362878736041242800513389,
  339577166210931521230969482981504105,
  5181536349654106464117279779937,
  339577166210931521303509620654437742,
  339577166210931521377332085792929646,
  339577166210931521444601349608009317,
  5181536349654106468455146418789,
  1458472823344307123245493538918460951784419943,
  79063970179048255473934945,
  1326473305511451256768921189051489,
  339577166210931521734800964003525997,
  5181536349654106471787856489577,
  339577166210931521735096736724120417,
  20240376365836353409582067571,
  22254529164799608213152801245009661422693,
  79063970179048255507098981,
  5181536349654106472938807911521,
  22254529164799608213374163027029166090345,
  5181536349654106472939109051233,
  5181536349654106473952603890287,
  5181536349654106473952672314479,
  5181536349654106473952721597045,
  1326473305511451257332918879612517,
  86931754549998469601508608179929573493,
  339577166210931521880900770484087137,
  1326473305511451257613328973783657,
  339577166210931521949857668682575457,
  5181536349654106475086291494265,
  22254529164799608222709578990918774518900,
  5697159466188699706250543734837523268464501,
  22254529164799608232154101136066190734959,
  339577166210931522309306431908572517,
  1326473305511451259320870498167913,
  20240376365836353444277807475,
  339577166210931522599787800755660139,
  20248777622263038536474452331,
  22263766443928676358079562966766385719141,
  86967837671596392023748297292711226465,
  339718115904673406342766841932772705,
  22263766443928676358079850633118557498977,
  451562830335796784529375451030380575929620568986921311827350842894345587,
  26915242095935153039060559930228029246903691844481134462170719073,
  410694001707994888901680907138489215803584165122823808836193,
  6266693141296308729578871263709857418877932237239252345,
  105137664437246691558830312227453239245717546915930354366769761,
  410694001707994888901680907138489215803584167926561279801953,
  451562830335796784529375451030380575929620573924220141065000775903047539,
  6266693141296308729578871263709857418877932275558544481,
  105137664437246691558830312227453239245717547420419059271164270,
  105137664437246691558830312227453239245717547420419059304720755,
  410694001707994888901680907138489215803584169914431343255918,
  410694001707994888901680907138489215803584170193728770763105,
  5183687071299337865337695986273,
  86967837671596392023749720030591938414,
  86967837671596392023749988298745667950,
  5183687071299337865341704890721,
  24479270083188705974936401718965309714310047800123763,
  86967837671596392023816707724940701555,
  5183687071299337865341772260717,
  1327023890252630493527493699009125,
  373524018603343291853901230902285960941862154094,
  22263766443928676358098081126211818583137,
  1327023890252630493527536565187681,
  5183687071299337865341939839845,
  95622148762455882714674553389113902532499836395897,
  373524018603343291854197474434243846505442993253,
  1327023890252630493528576063927662,
  339718115904673406343315489510613363,
  339718115904673406343315519643217509,
  1327023890252630493528576249127278,
  339718115904673406343323147470727023,
  22263766443928676358116025798224922572129,
  5699524209645741147677832455485466469819233,
  339718115904673406343334125676818286,
  1327023890252630493528661879251553,
  339718115904673406343337479743168879,
  373524018603343291854506964110105756441073776238,
  1327023890252630493529675727597422,
  373524018603343291854507006723092164457399674219,
  1327023890252630493529692756665714,
  339718115904673406343601371409770868,
  86967837671596392023964758095415567201,
  86967837671596392024033719490480205678,
  86967837671596392024035132388690718821,
  1459078197669309733807927259686485061911474034,
  1459078197669309733809151867598134015792738158,
  22263766443928676358171872979987531659873,
  22263766443928676358190098747528728174969,
  22263766443928676358190318878552701952377,
  5699524209645741147696775962926922205590123,
  339718115904673406344460025498526817,
  5699524209645741147696831300345819949264997,
  22263766443928676358190747284568061078625,
  22263766443928676358190747290048507767148,
  1327023890252630493533060194201185,
  339718115904673406344722838758777208,
  1327023890252630493534073756151393,
  5699524209645741147701259746446908756618351,
  6890301976559399178045085805331132468327300529467952139664907594099,
  373524018603343291856070057897414529785111932792,
  6266693141296308729620328272477429407743805149504497519,
  105137664437246691559525845418260688298484132685693789073142375]

def zoneCodes1 : List Nat := [410694001707994888904397833665080813666027428035329977316473,
  95622148762455882715153934821738119625035748893049,
  410694001707994888904397833665080813666064610307204971390323,
  6266693141296308729620328272477429407746628678117581155,
  1327023890252630493535229086951787,
  339718115904673406345021858728208756,
  339718115904673406345285792873145185,
  1327023890252630493536358544793973,
  26915242095935153039282437324447212417302458576001506883507350629,
  26915242095935153039282437324447212417302463297866671742843120751,
  5699524209645741147715665428296885619747435,
  1327023890252630493538470358704506,
  20248777622263038536659332449,
  1459078197669309733816405434919051832440153459,
  95622148762455882715391951745299810174953377195379,
  1327023890252630493539570995784047,
  339718115904673406346130222098117985,
  1327023890252630493539571180074355,
  339718115904673406346130239412203380,
  5699524209645741147724797793848668437181797,
  22263766443928676358299991924297790812019,
  86967837671596392024609350051475251566,
  22263766443928676358300278481217144120677,
  1327023890252630493539588427572321,
  5699524209645741147724871722679542425611361,
  1459078197669309733817567234577333441685714041,
  86967837671596392024611592041331978094,
  339718115904673406346145615295311726,
  22263766443928676358300999062620873057657,
  5699524209645741147725055760030960531563887,
  86967837671596392024613277588580032876,
  5699524209645741147725055760046280831820148,
  1327023890252630493540670776762741,
  86967837671596392024682529967259480683,
  339718115904673406346420501892001646,
  20248777622263038536693280101,
  339718115904673406346427107652823137,
  26915242095935153039350212043962727695089711032982125484316582248,
  26915242095935153039350212043962727695089711032982126583711294834,
  451562830335796784534235007107364178489702221377924464750892124100912493,
  20248777622263038536693675371,
  339718115904673406346703046399059809,
  1327023890252630493542869714955617,
  1459078197669309733821174937961779906141843047,
  5699524209645741147738964887953595177722479,
  339718115904673406346982347972176248,
  95622148762455882715708858420056332333306249046382,
  24479270083188705975221467755595554671706468665680741,
  1459078197669309733821241125816466188622653551,
  1459078197669309733821269220065069264248857455,
  373524018603343291858244962873458271233309041011,
  1459078197669309733823592697874707776980542834,
  373524018603343291858839754211286351464538858868,
  1327023890252630493545085734053477,
  1327023890252630493545085801164385,
  86967837671596392024970756284986258533,
  5699524209645741147748556960356062274151279,
  373524018603343291859149239386530022656309355884,
  86967837671596392025041682502849291629,
  86967837671596392025041682502982395759,
  95622148762455882715942205283209938805325856401263,
  22263766443928676358410670909772120026223,
  373524018603343291859151661923953866949967310436,
  5183687071299337865414854339425,
  86967837671596392025043647313233273707,
  95622148762455882715947990965811958085820906564985,
  86967837671596392025046944585345429107,
  86967837671596392025046944589540521075,
  86967837671596392025046944594035698017,
  22263766443928676358412017824813598728563,
  5699524209645741147753476563716326277082740,
  95622148762455882715949007842776013009029161119348,
  1459078197669309733826029402584671429677838433,
  5183687071299337865419132595301,
  1459078197669309733826043827434411035363271033,
  339718115904673406348109326183394913,
  339718115904673406348115957513090159,
  339718115904673406348115957597039713,
  22263766443928676358466010934319030625650,
  5699524209645741147772149937363110799242085,
  86967837671596392025332164653178971495,
  339718115904673406349507909270135156,
  1459078197669309733832074123271339708038866533,
  86973332860505674769652121559557694841,
  86973332860505674769652121563852859763,
  410719952003917122744326046168584747674898979903544840973413,
  373547620259994003158068195579779765883305617765,
  22265173212289452741030943130241954180974,
  5699884342346099901703921441343958938707055,
  22265173212289452741030943133540304119154,
  5699884342346099901703921442764695246565985,
  95628190786558464808465458097017371246920261921893,
  86973332860505674769652121628679567201,
  86973332860505674769652121632857091180,
  22265173212289452741030943140197621329771,
  1459513081192686732351790411459436057632269678,
  1207354649833625642350,
  79125194331496524590183545,
  309082790357408315957614,
  79125194331496532978989426,
  309082790357408383525237,
  79125194331496546183373413,
  5185548735708958200394997195124,
  79125194331496559152357749,
  20256049748863379649782374756,
  20256049748863379654244919662,
  1207354649833642224501,
  20256049748863379679830830955,
  20256049748863379697127486828,
  79125194331497593971045748,
  20256049748863388497415464299,
  79125194331497650006680937,
  309082790357416821748833,
  339840121943431526944834668285092206,
  1327500476341529402133779724201575,
  20256049748863676539514741359,
  5185548735709169312099620582771,
  309082790357421116189537,
  1207354649833676303465,
  309082790357421334356329]

def zoneCodes2 : List Nat := [5185548735709174948225988059749,
  1327500476341584237385599050544225,
  1207354649833726114401,
  79125194331504174010886510,
  79125194331504190923370350,
  86999071217524547123511855236776554088,
  1327500476341622139967829399531111,
  1207354649833743808100,
  20256049748865368683716047723,
  20256049748865631466659411041,
  5185548735709601670857938530913,
  1327500476341658314021686360171885,
  309082790357451063588204,
  1327500476341676471108170581044065,
  20256049748865912971699906665,
  20256049748865912976112574834,
  1327500476341676473084014450599029,
  5185548735709675672444167874401,
  20256049748865928339260535905,
  86999071217528189270568972867695965035,
  22271762231687220079913029654863863117170,
  20256049748865934897625788007,
  79125194331507558528936308,
  309082790357459653583221,
  20256049748866475874408751470,
  5185548735709817828246939722098,
  79125194331509671502376033,
  79125194331509757485212020,
  20256049748866766128534481249,
  22271762231688141380613356926639403201387,
  86999071217531802268023163997197071211,
  1207354649833861116779,
  1207354649833861439852,
  339840121943492917638755044479561320,
  1327500476341769713935026628747627,
  1327500476341770434785836726840935,
  309082790357476834566514,
  5185548735710110008150160466297,
  1327500476341788884638251116291169,
  20256049748867883279458463598,
  79125194331515203604276328,
  5185548735710250173840929614190,
  1327500476341824045058604350402148,
  309082790357485491287404,
  5185548735710252133196520513897,
  1327500476341824621807355770663525,
  5701571131312561242100989377272320577336171,
  79125194331517368000341353,
  5185548735710322240231227879028,
  20256049748868447307532170089,
  79125194331517385163563374,
  20256049748868453904619169909,
  309082790357489953765743,
  309082790357489953895275,
  86999071217540250193269170852158792050,
  79125194331518540727546217,
  5185548735710399365220468617825,
  1327500476341879959514080176336485,
  86999071217541459119303572939227819883,
  20256049748869853591645746027,
  79125194331522865641779054,
  5701571131313032595010445786479332760580711,
  20256049748869858019488719214,
  339860642113916461567344866936120691,
  87004324381162614161240544333681484897,
  339860642113916461567346958567305849,
  1459690343076831508907796088676796415691875429,
  1327580633257486177997461942071141,
  87004324381162614161243636100114248289,
  5701915402643873081671355463325407667186027,
  24489540178914106820553291053192922243641766475950433,
  5701915402643873081671374965843614820036193,
  87004324381162614161245345827961726329,
  5702265088340030065978544235776138615022693,
  5702265088340030065978544311778810454437477,
  95668133076339765863416289284394552079228758223980,
  87009660161438447051674566416789563749,
  87009660161438447051674567430402173294,
  339881485005618933795603783654534241,
  87009660161438447051674571888308351604,
  5702265088340030065978545029826909228065134,
  1459779862615047696890507528069159929546504037,
  1459779862615047696890507545793637354050842213,
  339881485005618933795603830631724136,
  87009660161438447051674584025920333177,
  19549742736821588,
  1281211940000339602225,
  327990256640086938169648,
  327990256640086938169649,
  327990256640086938169650,
  1281211940000339602226,
  1281211940000339602227,
  1281211940000339602228,
  1281211940000339602229,
  1281211940000339602230,
  1281211940000339602231,
  1281211940000339602232,
  1281211940000339602233,
  1281211940000339602737,
  327990256640086938300720,
  327990256640086938300721,
  327990256640086938300722,
  327990256640086938300723,
  327990256640086938300724,
  1281211940000339602738,
  1281211940000339602739,
  1281211940000339602740,
  1281211940000339602741,
  1281211940000339602742,
  1281211940000339602743,
  1281211940000339602744,
  1281211940000339602745,
  92326551465413271202592118359669891437,
  1408791373678791369669493841359457,
  92326551465413271203024743182553866606,
  5503091303432778787797296574067,
  360650591661770590704923504367723621,
  5503091303432778788832551922030,
  23635597175145797432676885471023478175329,
  360650591661770590708592626226261107]

def zoneCodes3 : List Nat := [92326551465413271221610806374736163700,
  360650591661770590709418282098979700,
  360650591661770590709434809099707758,
  360650591661770590777822276190364021,
  23635597175145797437344988368908042331502,
  5503091303432778791100026218862,
  92326551465413271312979565134868668786,
  360650591661770591069707424782050681,
  360650591661770591137269119984757609,
  6050712876837324151232687597136086307791214,
  360650591661770591213276082563347820,
  5503091303432778797628645401977,
  6050712876837324153565536949852553862078820,
  83970509390758953838273910,
  21496450404034292182598971254,
  83970509390758953839323510,
  5503091303432778799844864192366,
  92326551465413271405290673577035656801,
  5503091303432778799870550241134,
  23635597175145797479957543638804364358247,
  5503091303432778800909765470564,
  21496450404034292191054296161,
  92326551465413271423088062545956793710,
  21496450404034292191188644715,
  5503091303432778800970061669231,
  5503091303432778800970145689463,
  83970509390758953906039919,
  21496450404034292203939588467,
  92326551465413271479433158278037201761,
  5503091303432778804281263748453,
  83970509390758953955714913,
  83970509390758953956109669,
  5503091303432778807506985120353,
  23635597175145797512644434104515299995247,
  360650591661770591928783274271667823,
  1408791373678791374721809665781622,
  23635597175145797512791955729220551864172,
  5503091303432778807549969328741,
  21496450404034292217058584929,
  92326551465413271535136770278705556589,
  1408791373678791375003259056516718,
  5503091303432778808640940371557,
  92326551465413271571456610237567890283,
  360650591661770592079924367503552356,
  21496450404034292229708477818,
  1408791373678791375566243318948206,
  5503091303432778810839746375265,
  1408791373678791375575005136516467,
  92326551465413271590115874519924236644,
  5503091303432778811905116692855,
  5503091303432778815203466962274,
  23635597175145797545701165877056246413669,
  5503091303432778815289550267240,
  1637570919256748372033724259692039213893121647,
  5817820604849360580052146155379,
  97606832936808369913424934603194196339,
  22725861737692814765946269555,
  5817820604849360580082412778095,
  97606832936808370060782712220071781742,
  88772897412862557846333541,
  381276691159407695692915147623785843,
  97606832936808370097388826459609068915,
  1489362074841436311300505815250021,
  1489362074841436312712261547945838,
  24876536048779694881343826273,
  106843908767273850224231735196622351972,
  458891093932248861789379885777748122379267894373,
  417359018622163477438953863474864493,
  6368393228487601889632476034411,
  1630308666492826083748082789672306,
  6368393228487601889641031103589,
  27352040644422105657476607058375588803193,
  417359018622163477439790634454967919,
  24876536048779694881427253865,
  106843908767273850224592035218390873193,
  27352040644422105657512566045193674387315,
  417359018622163477440072118037996914,
  1792543335672847116370837772965247961422258540,
  24876536048779694881444815213,
  106843908767273850224734461616836668533,
  106843908767273850224878570203665166190,
  1630308666492826083754679775555438,
  7002122404972059048342254382055445447668841,
  1630308666492826083754739988848997,
  27352040644422105657587935202163967748462,
  1630308666492826083756878731768431,
  27352040644422105657623248216099520733555,
  1630308666492826083756912990970233,
  6368393228487601889679603233397,
  24876536048779694881561474405,
  417359018622163477442057857580100715,
  1630308666492826083758038556960097,
  27352040644422105657678585349531456595823,
  6368393228487601889688192573813,
  106843908767273850225309240064624652910,
  417359018622163477442620764718130537,
  1630308666492826083760237461991525,
  458891093932248861793712661983263553861155250809,
  27352040644422105657715481934264917714785,
  1630308666492826083763475784425838,
  1630308666492826083764575278822505,
  1630308666492826083764575446071137,
  27352040644422105657753383093951346602101,
  24876536048779694881662727531,
  24876536048779694881711942501,
  1630308666492826083767873881008499]

/-- a number for each zone: its characters as digits -/
def zoneCodes : List Nat := zoneCodes0 ++ zoneCodes1 ++ zoneCodes2 ++ zoneCodes3

end NJ
