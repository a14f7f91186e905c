import Verif.Model.JsonText
/-! # The text of the example mission that comes with the program

Generated by tools/gen_shipped_text.py from utils/example.json. -/

namespace Post.Shipped

set_option maxRecDepth 100000

/-- utils/example.json, character by character -/
def text : List Char :=
  ['[', '\n'] ++
  [' ', ' ', ' ', ' ', '{', '\n'] ++
  [' ', ' ', ' ', ' ', ' ', ' ', ' ', ' ', '"', 'p', 'l', 'a', 'n', 'e', 't', '_', 'm', 'o', 'd', 'e', 'l', '"', ':', ' ', '"', 's', 'p', 'h', 'e', 'r', 'i', 'c', 'a', 'l', '"', ',', '\n'] ++
  [' ', ' ', ' ', ' ', ' ', ' ', ' ', ' ', '"', 'a', 't', 'm', 'o', 's', 'p', 'h', 'e', 'r', 'e', '"', ':', ' ', '{', '\n'] ++
  [' ', ' ', ' ', ' ', ' ', ' ', ' ', ' ', ' ', ' ', ' ', ' ', '"', 'e', 'n', 'a', 'b', 'l', 'e', 'd', '"', ':', ' ', 't', 'r', 'u', 'e', ',', '\n'] ++
  [' ', ' ', ' ', ' ', ' ', ' ', ' ', ' ', ' ', ' ', ' ', ' ', '"', 'w', 'i', 'n', 'd', '"', ':', ' ', '[', ' ', '0', ',', ' ', '0', ',', ' ', '0', ' ', ']', '\n'] ++
  [' ', ' ', ' ', ' ', ' ', ' ', ' ', ' ', '}', ',', '\n'] ++
  [' ', ' ', ' ', ' ', ' ', ' ', ' ', ' ', '"', 'i', 'n', 'i', 't', '"', ':', ' ', '{', '\n'] ++
  [' ', ' ', ' ', ' ', ' ', ' ', ' ', ' ', ' ', ' ', ' ', ' ', '"', 'l', 'a', 't', 'i', 't', 'u', 'd', 'e', '"', ':', ' ', '2', '8', '.', '5', ',', '\n'] ++
  [' ', ' ', ' ', ' ', ' ', ' ', ' ', ' ', ' ', ' ', ' ', ' ', '"', 'l', 'o', 'n', 'g', 'i', 't', 'u', 'd', 'e', '"', ':', ' ', '2', '7', '9', '.', '4', ',', '\n'] ++
  [' ', ' ', ' ', ' ', ' ', ' ', ' ', ' ', ' ', ' ', ' ', ' ', '"', 'a', 'z', 'i', 'm', 'u', 't', 'h', '"', ':', ' ', '9', '0', ',', '\n'] ++
  [' ', ' ', ' ', ' ', ' ', ' ', ' ', ' ', ' ', ' ', ' ', ' ', '"', 'a', 'l', 't', 'i', 't', 'u', 'd', 'e', '"', ':', ' ', '0', '\n'] ++
  [' ', ' ', ' ', ' ', ' ', ' ', ' ', ' ', '}', ',', '\n'] ++
  [' ', ' ', ' ', ' ', ' ', ' ', ' ', ' ', '"', 'v', 'e', 'h', 'i', 'c', 'l', 'e', '"', ':', ' ', '{', '\n'] ++
  [' ', ' ', ' ', ' ', ' ', ' ', ' ', ' ', ' ', ' ', ' ', ' ', '"', 's', 't', 'r', 'u', 'c', 't', 'u', 'r', 'e', '_', 'm', 'a', 's', 's', '"', ':', ' ', '8', '.', '0', '9', '3', '3', '6', '3', '5', '5', 'e', '5', ',', '\n'] ++
  [' ', ' ', ' ', ' ', ' ', ' ', ' ', ' ', ' ', ' ', ' ', ' ', '"', 'p', 'r', 'o', 'p', 'e', 'l', 'l', 'a', 'n', 't', '_', 'm', 'a', 's', 's', '"', ':', ' ', '1', '.', '0', '2', '0', '1', '2', '9', '3', '1', 'e', '6', ',', '\n'] ++
  [' ', ' ', ' ', ' ', ' ', ' ', ' ', ' ', ' ', ' ', ' ', ' ', '"', 'r', 'e', 'f', 'e', 'r', 'e', 'n', 'c', 'e', '_', 'a', 'r', 'e', 'a', '"', ':', ' ', '4', '.', '1', '8', '0', '6', '3', '6', '8', 'e', '2', ',', '\n'] ++
  [' ', ' ', ' ', ' ', ' ', ' ', ' ', ' ', ' ', ' ', ' ', ' ', '"', 'd', 'r', 'a', 'g', '_', 'c', 'o', 'e', 'f', 'f', '"', ':', ' ', '{', '\n'] ++
  [' ', ' ', ' ', ' ', ' ', ' ', ' ', ' ', ' ', ' ', ' ', ' ', ' ', ' ', ' ', ' ', '"', 'x', '"', ':', ' ', '[', ' ', '"', 'a', 'l', 'p', 'h', 'a', '"', ',', ' ', '[', ' ', '-', '3', '.', '4', '9', '0', '6', '5', '8', '5', 'e', '-', '1', ',', ' ', '-', '8', '.', '7', '2', '6', '6', '4', '6', '2', '6', 'e', '-', '2', ',', ' ', '0', ',', ' ', '8', '.', '7', '2', '6', '6', '4', '6', '2', '6', 'e', '-', '2', ',', ' ', '3', '.', '4', '9', '0', '6', '5', '8', '5', 'e', '-', '1', ' ', ']', ' ', ']', ',', '\n'] ++
  [' ', ' ', ' ', ' ', ' ', ' ', ' ', ' ', ' ', ' ', ' ', ' ', ' ', ' ', ' ', ' ', '"', 'y', '"', ':', ' ', '[', ' ', '"', 'm', 'a', 'c', 'h', '_', 'n', 'u', 'm', 'b', 'e', 'r', '"', ',', ' ', '[', ' ', '0', ',', ' ', '0', '.', '5', ',', ' ', '0', '.', '7', ',', ' ', '0', '.', '8', ',', ' ', '1', ',', ' ', '1', '.', '2', ',', ' ', '1', '.', '5', ',', ' ', '2', '.', '0', ',', ' ', '3', ',', ' ', '5', ',', ' ', '7', ',', ' ', '1', '0', ' ', ']', ' ', ']', ',', '\n'] ++
  [' ', ' ', ' ', ' ', ' ', ' ', ' ', ' ', ' ', ' ', ' ', ' ', ' ', ' ', ' ', ' ', '"', 'd', 'a', 't', 'a', '"', ':', ' ', '[', '\n'] ++
  [' ', ' ', ' ', ' ', ' ', ' ', ' ', ' ', ' ', ' ', ' ', ' ', ' ', ' ', ' ', ' ', ' ', ' ', ' ', ' ', '[', ' ', '1', '.', '4', '5', '6', ',', ' ', '1', '.', '5', '8', '5', ',', ' ', '1', '.', '5', '9', '8', ',', ' ', '1', '.', '2', '4', '2', ',', ' ', '3', '.', '1', '5', '7', ',', ' ', '2', '.', '9', '9', '6', ',', ' ', '1', '.', '8', '1', '6', ',', ' ', '1', '.', '3', '0', '1', ',', ' ', '0', '.', '8', '5', '0', ',', ' ', '0', '.', '4', '8', '2', ',', ' ', '0', '.', '3', '8', '2', ',', ' ', '0', '.', '3', '9', '6', ' ', ']', ',', '\n'] ++
  [' ', ' ', ' ', ' ', ' ', ' ', ' ', ' ', ' ', ' ', ' ', ' ', ' ', ' ', ' ', ' ', ' ', ' ', ' ', ' ', '[', ' ', '0', '.', '2', '6', '3', ',', ' ', '0', '.', '3', '3', '8', ',', ' ', '0', '.', '1', '1', '0', ',', ' ', '0', '.', '3', '0', '2', ',', ' ', '0', '.', '6', '9', '0', ',', ' ', '0', '.', '6', '7', '1', ',', ' ', '0', '.', '5', '6', '3', ',', ' ', '0', '.', '4', '8', '0', ',', ' ', '0', '.', '3', '8', '3', ',', ' ', '0', '.', '2', '5', '6', ',', ' ', '0', '.', '2', '1', '2', ',', ' ', '0', '.', '2', '1', '0', ' ', ']', ',', '\n'] ++
  [' ', ' ', ' ', ' ', ' ', ' ', ' ', ' ', ' ', ' ', ' ', ' ', ' ', ' ', ' ', ' ', ' ', ' ', ' ', ' ', '[', ' ', '0', '.', '1', '8', '0', ',', ' ', '0', '.', '1', '8', ',', ' ', '0', '.', '2', '0', '0', ',', ' ', '0', '.', '2', '5', '1', ',', ' ', '0', '.', '4', '9', '5', ',', ' ', '0', '.', '5', '0', '2', ',', ' ', '0', '.', '4', '8', '5', ',', ' ', '0', '.', '4', '5', '6', ',', ' ', '0', '.', '3', '9', '1', ',', ' ', '0', '.', '2', '7', '2', ',', ' ', '0', '.', '2', '3', '1', ',', ' ', '0', '.', '2', '3', '1', ' ', ']', ',', '\n'] ++
  [' ', ' ', ' ', ' ', ' ', ' ', ' ', ' ', ' ', ' ', ' ', ' ', ' ', ' ', ' ', ' ', ' ', ' ', ' ', ' ', '[', ' ', '0', '.', '2', '6', '3', ',', ' ', '0', '.', '3', '3', '8', ',', ' ', '0', '.', '1', '1', '0', ',', ' ', '0', '.', '3', '0', '2', ',', ' ', '0', '.', '6', '9', '0', ',', ' ', '0', '.', '6', '7', '1', ',', ' ', '0', '.', '5', '6', '3', ',', ' ', '0', '.', '4', '8', '0', ',', ' ', '0', '.', '3', '8', '3', ',', ' ', '0', '.', '2', '5', '6', ',', ' ', '0', '.', '2', '1', '2', ',', ' ', '0', '.', '2', '1', '0', ' ', ']', ',', '\n'] ++
  [' ', ' ', ' ', ' ', ' ', ' ', ' ', ' ', ' ', ' ', ' ', ' ', ' ', ' ', ' ', ' ', ' ', ' ', ' ', ' ', '[', ' ', '1', '.', '4', '5', '6', ',', ' ', '1', '.', '5', '8', '5', ',', ' ', '1', '.', '5', '9', '8', ',', ' ', '1', '.', '2', '4', '2', ',', ' ', '3', '.', '1', '5', '7', ',', ' ', '2', '.', '9', '9', '6', ',', ' ', '1', '.', '8', '1', '6', ',', ' ', '1', '.', '3', '0', '1', ',', ' ', '0', '.', '8', '5', '0', ',', ' ', '0', '.', '4', '8', '2', ',', ' ', '0', '.', '3', '8', '2', ',', ' ', '0', '.', '3', '9', '6', ' ', ']', '\n'] ++
  [' ', ' ', ' ', ' ', ' ', ' ', ' ', ' ', ' ', ' ', ' ', ' ', ' ', ' ', ' ', ' ', ']', '\n'] ++
  [' ', ' ', ' ', ' ', ' ', ' ', ' ', ' ', ' ', ' ', ' ', ' ', '}', ',', '\n'] ++
  [' ', ' ', ' ', ' ', ' ', ' ', ' ', ' ', ' ', ' ', ' ', ' ', '"', 'l', 'i', 'f', 't', '_', 'c', 'o', 'e', 'f', 'f', '"', ':', ' ', '{', '\n'] ++
  [' ', ' ', ' ', ' ', ' ', ' ', ' ', ' ', ' ', ' ', ' ', ' ', ' ', ' ', ' ', ' ', '"', 'x', '"', ':', ' ', '[', ' ', '"', 'a', 'l', 'p', 'h', 'a', '"', ',', ' ', '[', ' ', '-', '3', '.', '4', '9', '0', '6', '5', '8', '5', 'e', '-', '1', ',', ' ', '0', ',', ' ', '8', '.', '7', '2', '6', '6', '4', '6', '2', '6', 'e', '-', '2', ',', ' ', '3', '.', '4', '9', '0', '6', '5', '8', '5', 'e', '-', '1', ' ', ']', ' ', ']', ',', '\n'] ++
  [' ', ' ', ' ', ' ', ' ', ' ', ' ', ' ', ' ', ' ', ' ', ' ', ' ', ' ', ' ', ' ', '"', 'y', '"', ':', ' ', '[', ' ', '"', 'm', 'a', 'c', 'h', '_', 'n', 'u', 'm', 'b', 'e', 'r', '"', ',', ' ', '[', ' ', '0', ',', ' ', '0', '.', '5', ',', ' ', '0', '.', '7', ',', ' ', '0', '.', '8', ',', ' ', '1', ',', ' ', '1', '.', '2', ',', ' ', '1', '.', '5', ',', ' ', '2', '.', '0', ',', ' ', '3', ',', ' ', '5', ',', ' ', '7', ',', ' ', '1', '0', ' ', ']', ' ', ']', ',', '\n'] ++
  [' ', ' ', ' ', ' ', ' ', ' ', ' ', ' ', ' ', ' ', ' ', ' ', ' ', ' ', ' ', ' ', '"', 'd', 'a', 't', 'a', '"', ':', ' ', '[', '\n'] ++
  [' ', ' ', ' ', ' ', ' ', ' ', ' ', ' ', ' ', ' ', ' ', ' ', ' ', ' ', ' ', ' ', ' ', ' ', ' ', ' ', '[', ' ', '-', '1', '.', '0', '1', '0', ',', ' ', '-', '1', '.', '0', '2', '5', ',', ' ', '-', '0', '.', '9', '9', ',', ' ', '-', '0', '.', '8', '1', '5', ',', ' ', '-', '1', '.', '0', '8', ',', ' ', '-', '1', '.', '1', '1', ',', ' ', '-', '0', '.', '8', '9', '5', ',', ' ', '-', '0', '.', '7', '8', '8', ',', ' ', '-', '0', '.', '6', '3', '5', ',', ' ', '-', '0', '.', '4', '8', '0', ',', ' ', '-', '0', '.', '4', '3', ',', ' ', '-', '0', '.', '4', '3', ' ', ']', ',', '\n'] ++
  [' ', ' ', ' ', ' ', ' ', ' ', ' ', ' ', ' ', ' ', ' ', ' ', ' ', ' ', ' ', ' ', ' ', ' ', ' ', ' ', '[', ' ', '0', '.', '0', '1', '5', ',', ' ', '0', '.', '0', '4', ',', ' ', '0', '.', '0', '1', ',', ' ', '-', '0', '.', '0', '4', '5', ',', ' ', '0', '.', '0', '8', ',', ' ', '0', '.', '0', '3', '8', ',', ' ', '-', '0', '.', '0', '2', ',', ' ', '-', '0', '.', '1', '0', '8', ',', ' ', '-', '0', '.', '1', '4', '5', ',', ' ', '-', '0', '.', '1', '5', ',', ' ', '-', '0', '.', '1', '5', ',', ' ', '-', '0', '.', '1', '5', ' ', ']', ',', '\n'] ++
  [' ', ' ', ' ', ' ', ' ', ' ', ' ', ' ', ' ', ' ', ' ', ' ', ' ', ' ', ' ', ' ', ' ', ' ', ' ', ' ', '[', ' ', '0', '.', '5', '4', '5', ',', ' ', '0', '.', '7', '5', ',', ' ', '0', '.', '5', '3', ',', ' ', '0', '.', '3', '6', '5', ',', ' ', '0', '.', '6', '9', ',', ' ', '0', '.', '6', '3', '8', ',', ' ', '0', '.', '4', '3', ',', ' ', '0', '.', '2', '4', '2', ',', ' ', '0', '.', '1', '1', ',', ' ', '0', '.', '0', '2', '5', ',', ' ', '0', '.', '0', '0', ',', ' ', '0', '.', '0', '0', ' ', ']', ',', '\n'] ++
  [' ', ' ', ' ', ' ', ' ', ' ', ' ', ' ', ' ', ' ', ' ', ' ', ' ', ' ', ' ', ' ', ' ', ' ', ' ', ' ', '[', ' ', '2', '.', '1', '3', '5', ',', ' ', '2', '.', '2', '4', ',', ' ', '2', '.', '0', '9', ',', ' ', '1', '.', '5', '9', '5', ',', ' ', '2', '.', '5', '2', ',', ' ', '2', '.', '4', '3', '8', ',', ' ', '1', '.', '7', '8', ',', ' ', '1', '.', '2', '9', '2', ',', ' ', '0', '.', '8', '7', '5', ',', ' ', '0', '.', '5', '5', ',', ' ', '0', '.', '4', '5', ',', ' ', '0', '.', '4', '5', ' ', ']', '\n'] ++
  [' ', ' ', ' ', ' ', ' ', ' ', ' ', ' ', ' ', ' ', ' ', ' ', ' ', ' ', ' ', ' ', ']', '\n'] ++
  [' ', ' ', ' ', ' ', ' ', ' ', ' ', ' ', ' ', ' ', ' ', ' ', '}', ',', '\n'] ++
  [' ', ' ', ' ', ' ', ' ', ' ', ' ', ' ', ' ', ' ', ' ', ' ', '"', 's', 'i', 'd', 'e', '_', 'f', 'o', 'r', 'c', 'e', '_', 'c', 'o', 'e', 'f', 'f', '"', ':', ' ', 'n', 'u', 'l', 'l', ',', '\n'] ++
  [' ', ' ', ' ', ' ', ' ', ' ', ' ', ' ', ' ', ' ', ' ', ' ', '"', 'e', 'n', 'g', 'i', 'n', 'e', 's', '"', ':', ' ', '[', '\n'] ++
  [' ', ' ', ' ', ' ', ' ', ' ', ' ', ' ', ' ', ' ', ' ', ' ', ' ', ' ', ' ', ' ', '{', '\n'] ++
  [' ', ' ', ' ', ' ', ' ', ' ', ' ', ' ', ' ', ' ', ' ', ' ', ' ', ' ', ' ', ' ', ' ', ' ', ' ', ' ', '"', 'i', 'n', 'c', 'i', 'd', 'e', 'n', 'c', 'e', '"', ':', ' ', '[', ' ', '0', ',', ' ', '0', ' ', ']', ',', '\n'] ++
  [' ', ' ', ' ', ' ', ' ', ' ', ' ', ' ', ' ', ' ', ' ', ' ', ' ', ' ', ' ', ' ', ' ', ' ', ' ', ' ', '"', 't', 'h', 'r', 'u', 's', 't', '_', 'v', 'a', 'c', '"', ':', ' ', '2', '.', '4', '3', '4', '0', '6', '7', '0', '3', 'e', '7', ',', '\n'] ++
  [' ', ' ', ' ', ' ', ' ', ' ', ' ', ' ', ' ', ' ', ' ', ' ', ' ', ' ', ' ', ' ', ' ', ' ', ' ', ' ', '"', 'i', 's', 'p', '_', 'v', 'a', 'c', '"', ':', ' ', '4', '3', '9', '.', '0', ',', '\n'] ++
  [' ', ' ', ' ', ' ', ' ', ' ', ' ', ' ', ' ', ' ', ' ', ' ', ' ', ' ', ' ', ' ', ' ', ' ', ' ', ' ', '"', 'e', 'x', 'i', 't', '_', 'a', 'r', 'e', 'a', '"', ':', ' ', '2', '.', '1', '5', '9', '9', '9', '5', '6', '8', 'e', '1', '\n'] ++
  [' ', ' ', ' ', ' ', ' ', ' ', ' ', ' ', ' ', ' ', ' ', ' ', ' ', ' ', ' ', ' ', '}', '\n'] ++
  [' ', ' ', ' ', ' ', ' ', ' ', ' ', ' ', ' ', ' ', ' ', ' ', ']', '\n'] ++
  [' ', ' ', ' ', ' ', ' ', ' ', ' ', ' ', '}', ',', '\n'] ++
  [' ', ' ', ' ', ' ', ' ', ' ', ' ', ' ', '"', 'm', 'a', 'x', '_', 'a', 'c', 'c', 'e', 'l', 'e', 'r', 'a', 't', 'i', 'o', 'n', '"', ':', ' ', '-', '1', ',', '\n'] ++
  [' ', ' ', ' ', ' ', ' ', ' ', ' ', ' ', '"', 's', 't', 'e', 'e', 'r', 'i', 'n', 'g', '"', ':', ' ', '{', ' ', '"', 'p', 'i', 't', 'c', 'h', '"', ':', ' ', '[', ' ', '"', 't', 'i', 'm', 'e', '_', 's', 'i', 'n', 'c', 'e', '_', 'e', 'v', 'e', 'n', 't', '"', ',', ' ', '[', ' ', '0', ',', ' ', '0', ',', ' ', '0', ' ', ']', ' ', ']', ' ', '}', ',', '\n'] ++
  [' ', ' ', ' ', ' ', ' ', ' ', ' ', ' ', '"', 's', 't', 'e', 'p', 's', 'i', 'z', 'e', '"', ':', ' ', '5', ',', '\n'] ++
  [' ', ' ', ' ', ' ', ' ', ' ', ' ', ' ', '"', 'e', 'n', 'd', '_', 'c', 'r', 'i', 't', 'e', 'r', 'i', 'o', 'n', '"', ':', ' ', '[', ' ', '"', 't', 'i', 'm', 'e', '"', ',', ' ', '1', '5', ' ', ']', '\n'] ++
  [' ', ' ', ' ', ' ', '}', ',', '\n'] ++
  [' ', ' ', ' ', ' ', '{', '\n'] ++
  [' ', ' ', ' ', ' ', ' ', ' ', ' ', ' ', '"', 's', 't', 'e', 'e', 'r', 'i', 'n', 'g', '"', ':', ' ', '{', ' ', '"', 'p', 'i', 't', 'c', 'h', '"', ':', ' ', '[', ' ', '"', 't', 'i', 'm', 'e', '_', 's', 'i', 'n', 'c', 'e', '_', 'e', 'v', 'e', 'n', 't', '"', ',', ' ', '[', ' ', '-', '4', '.', '0', '2', '9', '5', '9', '1', '1', '0', 'e', '-', '1', ',', ' ', '0', ',', ' ', '0', ' ', ']', ' ', ']', ' ', '}', ',', '\n'] ++
  [' ', ' ', ' ', ' ', ' ', ' ', ' ', ' ', '"', 'e', 'n', 'd', '_', 'c', 'r', 'i', 't', 'e', 'r', 'i', 'o', 'n', '"', ':', ' ', '[', ' ', '"', 't', 'i', 'm', 'e', '"', ',', ' ', '2', '5', ' ', ']', '\n'] ++
  [' ', ' ', ' ', ' ', '}', ',', '\n'] ++
  [' ', ' ', ' ', ' ', '{', '\n'] ++
  [' ', ' ', ' ', ' ', ' ', ' ', ' ', ' ', '"', 's', 't', 'e', 'e', 'r', 'i', 'n', 'g', '"', ':', ' ', '{', ' ', '"', 'p', 'i', 't', 'c', 'h', '"', ':', ' ', '[', ' ', '"', 't', 'i', 'm', 'e', '_', 's', 'i', 'n', 'c', 'e', '_', 'e', 'v', 'e', 'n', 't', '"', ',', ' ', '[', ' ', '-', '4', '.', '5', '5', '8', '5', '3', '6', '2', '0', 'e', '-', '1', ',', ' ', '0', ',', ' ', '0', ' ', ']', ' ', ']', ' ', '}', ',', '\n'] ++
  [' ', ' ', ' ', ' ', ' ', ' ', ' ', ' ', '"', 'e', 'n', 'd', '_', 'c', 'r', 'i', 't', 'e', 'r', 'i', 'o', 'n', '"', ':', ' ', '[', ' ', '"', 't', 'i', 'm', 'e', '"', ',', ' ', '4', '0', ' ', ']', '\n'] ++
  [' ', ' ', ' ', ' ', '}', ',', '\n'] ++
  [' ', ' ', ' ', ' ', '{', '\n'] ++
  [' ', ' ', ' ', ' ', ' ', ' ', ' ', ' ', '"', 's', 't', 'e', 'e', 'r', 'i', 'n', 'g', '"', ':', ' ', '{', ' ', '"', 'p', 'i', 't', 'c', 'h', '"', ':', ' ', '[', ' ', '"', 't', 'i', 'm', 'e', '_', 's', 'i', 'n', 'c', 'e', '_', 'e', 'v', 'e', 'n', 't', '"', ',', ' ', '[', ' ', '-', '1', '.', '6', '7', '8', '8', '8', '9', '6', '3', 'e', '-', '1', ',', ' ', '0', ',', ' ', '0', ' ', ']', ' ', ']', ' ', '}', ',', '\n'] ++
  [' ', ' ', ' ', ' ', ' ', ' ', ' ', ' ', '"', 'e', 'n', 'd', '_', 'c', 'r', 'i', 't', 'e', 'r', 'i', 'o', 'n', '"', ':', ' ', '[', ' ', '"', 't', 'i', 'm', 'e', '"', ',', ' ', '6', '0', ' ', ']', '\n'] ++
  [' ', ' ', ' ', ' ', '}', ',', '\n'] ++
  [' ', ' ', ' ', ' ', '{', '\n'] ++
  [' ', ' ', ' ', ' ', ' ', ' ', ' ', ' ', '"', 'm', 'a', 'x', '_', 'a', 'c', 'c', 'e', 'l', 'e', 'r', 'a', 't', 'i', 'o', 'n', '"', ':', ' ', '2', '9', '.', '4', '1', '9', '9', '5', ',', '\n'] ++
  [' ', ' ', ' ', ' ', ' ', ' ', ' ', ' ', '"', 's', 't', 'e', 'e', 'r', 'i', 'n', 'g', '"', ':', ' ', '{', ' ', '"', 'p', 'i', 't', 'c', 'h', '"', ':', ' ', '[', ' ', '"', 't', 'i', 'm', 'e', '_', 's', 'i', 'n', 'c', 'e', '_', 'e', 'v', 'e', 'n', 't', '"', ',', ' ', '[', ' ', '-', '6', '.', '7', '7', '2', '4', '3', '2', '5', '1', 'e', '-', '1', ',', ' ', '0', ',', ' ', '0', ' ', ']', ' ', ']', ' ', '}', ',', '\n'] ++
  [' ', ' ', ' ', ' ', ' ', ' ', ' ', ' ', '"', 'e', 'n', 'd', '_', 'c', 'r', 'i', 't', 'e', 'r', 'i', 'o', 'n', '"', ':', ' ', '[', ' ', '"', 't', 'i', 'm', 'e', '"', ',', ' ', '1', '2', '0', ' ', ']', '\n'] ++
  [' ', ' ', ' ', ' ', '}', ',', '\n'] ++
  [' ', ' ', ' ', ' ', '{', '\n'] ++
  [' ', ' ', ' ', ' ', ' ', ' ', ' ', ' ', '"', 's', 't', 'e', 'e', 'r', 'i', 'n', 'g', '"', ':', ' ', '{', ' ', '"', 'p', 'i', 't', 'c', 'h', '"', ':', ' ', '[', ' ', '"', 't', 'i', 'm', 'e', '_', 's', 'i', 'n', 'c', 'e', '_', 'e', 'v', 'e', 'n', 't', '"', ',', ' ', '[', ' ', '-', '2', '.', '8', '7', '6', '7', '2', '4', '2', '9', 'e', '-', '1', ',', ' ', '0', ',', ' ', '0', ' ', ']', ' ', ']', ' ', '}', ',', '\n'] ++
  [' ', ' ', ' ', ' ', ' ', ' ', ' ', ' ', '"', 'e', 'n', 'd', '_', 'c', 'r', 'i', 't', 'e', 'r', 'i', 'o', 'n', '"', ':', ' ', '[', ' ', '"', 't', 'i', 'm', 'e', '"', ',', ' ', '1', '5', '0', ' ', ']', '\n'] ++
  [' ', ' ', ' ', ' ', '}', ',', '\n'] ++
  [' ', ' ', ' ', ' ', '{', '\n'] ++
  [' ', ' ', ' ', ' ', ' ', ' ', ' ', ' ', '"', 's', 't', 'e', 'e', 'r', 'i', 'n', 'g', '"', ':', ' ', '{', ' ', '"', 'p', 'i', 't', 'c', 'h', '"', ':', ' ', '[', ' ', '"', 't', 'i', 'm', 'e', '_', 's', 'i', 'n', 'c', 'e', '_', 'e', 'v', 'e', 'n', 't', '"', ',', ' ', '[', ' ', '-', '6', '.', '8', '5', '7', '0', '8', '4', '5', '1', 'e', '-', '2', ',', ' ', '0', ',', ' ', '0', ' ', ']', ' ', ']', ' ', '}', ',', '\n'] ++
  [' ', ' ', ' ', ' ', ' ', ' ', ' ', ' ', '"', 's', 't', 'e', 'p', 's', 'i', 'z', 'e', '"', ':', ' ', '1', '0', ',', '\n'] ++
  [' ', ' ', ' ', ' ', ' ', ' ', ' ', ' ', '"', 'e', 'n', 'd', '_', 'c', 'r', 'i', 't', 'e', 'r', 'i', 'o', 'n', '"', ':', ' ', '[', ' ', '"', 'p', 'r', 'o', 'p', 'e', 'l', 'l', 'a', 'n', 't', '_', 'm', 'a', 's', 's', '"', ',', ' ', '0', ' ', ']', '\n'] ++
  [' ', ' ', ' ', ' ', '}', ',', '\n'] ++
  [' ', ' ', ' ', ' ', '{', '\n'] ++
  [' ', ' ', ' ', ' ', ' ', ' ', ' ', ' ', '"', 'v', 'e', 'h', 'i', 'c', 'l', 'e', '"', ':', ' ', '{', '\n'] ++
  [' ', ' ', ' ', ' ', ' ', ' ', ' ', ' ', ' ', ' ', ' ', ' ', '"', 'e', 'n', 'g', 'i', 'n', 'e', 's', '"', ':', ' ', '[', ' ', ']', '\n'] ++
  [' ', ' ', ' ', ' ', ' ', ' ', ' ', ' ', '}', ',', '\n'] ++
  [' ', ' ', ' ', ' ', ' ', ' ', ' ', ' ', '"', 'm', 'a', 'x', '_', 'a', 'c', 'c', 'e', 'l', 'e', 'r', 'a', 't', 'i', 'o', 'n', '"', ':', ' ', '-', '1', ',', '\n'] ++
  [' ', ' ', ' ', ' ', ' ', ' ', ' ', ' ', '"', 'e', 'n', 'd', '_', 'c', 'r', 'i', 't', 'e', 'r', 'i', 'o', 'n', '"', ':', ' ', '[', ' ', '"', 't', 'i', 'm', 'e', '_', 's', 'i', 'n', 'c', 'e', '_', 'e', 'v', 'e', 'n', 't', '"', ',', ' ', '7', ' ', ']', '\n'] ++
  [' ', ' ', ' ', ' ', '}', ',', '\n'] ++
  [' ', ' ', ' ', ' ', '{', '\n'] ++
  [' ', ' ', ' ', ' ', ' ', ' ', ' ', ' ', '"', 'v', 'e', 'h', 'i', 'c', 'l', 'e', '"', ':', ' ', '{', '\n'] ++
  [' ', ' ', ' ', ' ', ' ', ' ', ' ', ' ', ' ', ' ', ' ', ' ', '"', 's', 't', 'r', 'u', 'c', 't', 'u', 'r', 'e', '_', 'm', 'a', 's', 's', '"', ':', ' ', '1', '.', '4', '0', '7', '4', '1', '1', '5', '8', 'e', '5', ',', '\n'] ++
  [' ', ' ', ' ', ' ', ' ', ' ', ' ', ' ', ' ', ' ', ' ', ' ', '"', 'p', 'r', 'o', 'p', 'e', 'l', 'l', 'a', 'n', 't', '_', 'm', 'a', 's', 's', '"', ':', ' ', '3', '.', '6', '6', '9', '5', '6', '2', '5', '2', 'e', '5', ',', '\n'] ++
  [' ', ' ', ' ', ' ', ' ', ' ', ' ', ' ', ' ', ' ', ' ', ' ', '"', 'r', 'e', 'f', 'e', 'r', 'e', 'n', 'c', 'e', '_', 'a', 'r', 'e', 'a', '"', ':', ' ', '4', '.', '4', '9', '6', '5', '0', '7', '1', '4', 'e', '2', ',', '\n'] ++
  [' ', ' ', ' ', ' ', ' ', ' ', ' ', ' ', ' ', ' ', ' ', ' ', '"', 'd', 'r', 'a', 'g', '_', 'c', 'o', 'e', 'f', 'f', '"', ':', ' ', '{', '\n'] ++
  [' ', ' ', ' ', ' ', ' ', ' ', ' ', ' ', ' ', ' ', ' ', ' ', ' ', ' ', ' ', ' ', '"', 'x', '"', ':', ' ', '[', ' ', '"', 'a', 'l', 'p', 'h', 'a', '"', ',', ' ', '[', ' ', '-', '3', '.', '4', '9', '0', '6', '5', '8', '5', 'e', '-', '1', ',', ' ', '-', '6', '.', '9', '8', '1', '3', '1', '7', '0', '1', 'e', '-', '2', ',', ' ', '0', ',', ' ', '8', '.', '7', '2', '6', '6', '4', '6', '2', '6', 'e', '-', '2', ',', ' ', '1', '.', '7', '4', '5', '3', '2', '9', '2', '5', 'e', '-', '1', ',', ' ', '3', '.', '4', '9', '0', '6', '5', '8', '5', 'e', '-', '1', ',', ' ', '5', '.', '2', '3', '5', '9', '8', '7', '7', '6', 'e', '-', '1', ' ', ']', ' ', ']', ',', '\n'] ++
  [' ', ' ', ' ', ' ', ' ', ' ', ' ', ' ', ' ', ' ', ' ', ' ', ' ', ' ', ' ', ' ', '"', 'y', '"', ':', ' ', '[', ' ', '"', 'm', 'a', 'c', 'h', '_', 'n', 'u', 'm', 'b', 'e', 'r', '"', ',', ' ', '[', ' ', '0', ',', ' ', '0', '.', '2', ',', ' ', '0', '.', '6', ',', ' ', '0', '.', '8', ',', ' ', '0', '.', '9', ',', ' ', '1', '.', '3', ',', ' ', '1', '.', '5', ',', ' ', '2', ',', ' ', '2', '.', '4', '8', ',', ' ', '3', ',', ' ', '3', '.', '9', ',', ' ', '4', '0', ' ', ']', ' ', ']', ',', '\n'] ++
  [' ', ' ', ' ', ' ', ' ', ' ', ' ', ' ', ' ', ' ', ' ', ' ', ' ', ' ', ' ', ' ', '"', 'd', 'a', 't', 'a', '"', ':', ' ', '[', '\n'] ++
  [' ', ' ', ' ', ' ', ' ', ' ', ' ', ' ', ' ', ' ', ' ', ' ', ' ', ' ', ' ', ' ', ' ', ' ', ' ', ' ', '[', ' ', '0', '.', '0', '2', '4', ',', ' ', '0', '.', '0', '2', '4', ',', ' ', '0', '.', '0', '2', '6', ',', ' ', '0', '.', '0', '2', '8', ',', ' ', '0', '.', '0', '3', '5', ',', ' ', '0', '.', '9', '3', ',', ' ', '0', '.', '1', '2', '2', ',', ' ', '0', '.', '1', '1', '6', ',', ' ', '0', '.', '1', ',', ' ', '0', '.', '0', '9', '2', ',', ' ', '0', '.', '0', '8', '2', ',', ' ', '0', '.', '0', '3', ' ', ']', ',', '\n'] ++
  [' ', ' ', ' ', ' ', ' ', ' ', ' ', ' ', ' ', ' ', ' ', ' ', ' ', ' ', ' ', ' ', ' ', ' ', ' ', ' ', '[', ' ', '0', '.', '0', '2', '4', ',', ' ', '0', '.', '0', '2', '4', ',', ' ', '0', '.', '0', '2', '6', ',', ' ', '0', '.', '0', '2', '8', ',', ' ', '0', '.', '0', '3', '5', ',', ' ', '0', '.', '9', '3', ',', ' ', '0', '.', '1', '2', '2', ',', ' ', '0', '.', '1', '1', '6', ',', ' ', '0', '.', '1', ',', ' ', '0', '.', '0', '9', '2', ',', ' ', '0', '.', '0', '8', '2', ',', ' ', '0', '.', '0', '3', ' ', ']', ',', '\n'] ++
  [' ', ' ', ' ', ' ', ' ', ' ', ' ', ' ', ' ', ' ', ' ', ' ', ' ', ' ', ' ', ' ', ' ', ' ', ' ', ' ', '[', ' ', '0', '.', '0', '2', '6', ',', ' ', '0', '.', '0', '2', '6', ',', ' ', '0', '.', '0', '2', '6', ',', ' ', '0', '.', '0', '2', '4', ',', ' ', '0', '.', '0', '3', '6', ',', ' ', '0', '.', '0', '9', '2', ',', ' ', '0', '.', '1', '1', '8', ',', ' ', '0', '.', '1', '0', '6', ',', ' ', '0', '.', '0', '9', '1', ',', ' ', '0', '.', '0', '8', '2', ',', ' ', '0', '.', '0', '7', '4', ',', ' ', '0', '.', '0', '2', '2', ' ', ']', ',', '\n'] ++
  [' ', ' ', ' ', ' ', ' ', ' ', ' ', ' ', ' ', ' ', ' ', ' ', ' ', ' ', ' ', ' ', ' ', ' ', ' ', ' ', '[', ' ', '0', '.', '0', '4', '2', ',', ' ', '0', '.', '0', '4', '2', ',', ' ', '0', '.', '0', '4', ',', ' ', '0', '.', '0', '4', '2', ',', ' ', '0', '.', '0', '7', '6', ',', ' ', '0', '.', '1', '2', '4', ',', ' ', '0', '.', '1', '4', '2', ',', ' ', '0', '.', '1', '2', '4', ',', ' ', '0', '.', '0', '9', '8', ',', ' ', '0', '.', '0', '8', '8', ',', ' ', '0', '.', '0', '7', '9', ',', ' ', '0', '.', '0', '3', '3', ' ', ']', ',', '\n'] ++
  [' ', ' ', ' ', ' ', ' ', ' ', ' ', ' ', ' ', ' ', ' ', ' ', ' ', ' ', ' ', ' ', ' ', ' ', ' ', ' ', '[', ' ', '0', '.', '0', '7', '6', ',', ' ', '0', '.', '0', '7', '6', ',', ' ', '0', '.', '0', '8', ',', ' ', '0', '.', '1', ',', ' ', '0', '.', '1', '3', ',', ' ', '0', '.', '1', '9', '4', ',', ' ', '0', '.', '1', '9', '2', ',', ' ', '0', '.', '1', '6', '5', ',', ' ', '0', '.', '1', '2', '7', ',', ' ', '0', '.', '1', '1', '4', ',', ' ', '0', '.', '0', '9', '5', ',', ' ', '0', '.', '0', '5', '7', ' ', ']', ',', '\n'] ++
  [' ', ' ', ' ', ' ', ' ', ' ', ' ', ' ', ' ', ' ', ' ', ' ', ' ', ' ', ' ', ' ', ' ', ' ', ' ', ' ', '[', ' ', '0', '.', '3', '6', ',', ' ', '0', '.', '3', '6', ',', ' ', '0', '.', '3', '6', '2', ',', ' ', '0', '.', '4', '4', ',', ' ', '0', '.', '4', '1', ',', ' ', '0', '.', '3', '9', ',', ' ', '0', '.', '3', '6', ',', ' ', '0', '.', '3', '2', ',', ' ', '0', '.', '2', '4', '2', ',', ' ', '0', '.', '2', '2', '4', ',', ' ', '0', '.', '2', '1', '6', ',', ' ', '0', '.', '2', '3', '8', ' ', ']', ',', '\n'] ++
  [' ', ' ', ' ', ' ', ' ', ' ', ' ', ' ', ' ', ' ', ' ', ' ', ' ', ' ', ' ', ' ', ' ', ' ', ' ', ' ', '[', ' ', '0', '.', '3', '6', ',', ' ', '0', '.', '3', '6', ',', ' ', '0', '.', '3', '6', ',', ' ', '0', '.', '4', '4', ',', ' ', '0', '.', '4', '1', ',', ' ', '0', '.', '3', '9', ',', ' ', '0', '.', '3', '6', ',', ' ', '0', '.', '3', '2', ',', ' ', '0', '.', '4', '4', ',', ' ', '0', '.', '4', '1', '8', ',', ' ', '0', '.', '4', ',', ' ', '0', '.', '3', ' ', ']', '\n'] ++
  [' ', ' ', ' ', ' ', ' ', ' ', ' ', ' ', ' ', ' ', ' ', ' ', ' ', ' ', ' ', ' ', ']', '\n'] ++
  [' ', ' ', ' ', ' ', ' ', ' ', ' ', ' ', ' ', ' ', ' ', ' ', '}', ',', '\n'] ++
  [' ', ' ', ' ', ' ', ' ', ' ', ' ', ' ', ' ', ' ', ' ', ' ', '"', 'l', 'i', 'f', 't', '_', 'c', 'o', 'e', 'f', 'f', '"', ':', ' ', '{', '\n'] ++
  [' ', ' ', ' ', ' ', ' ', ' ', ' ', ' ', ' ', ' ', ' ', ' ', ' ', ' ', ' ', ' ', '"', 'x', '"', ':', ' ', '[', ' ', '"', 'a', 'l', 'p', 'h', 'a', '"', ',', ' ', '[', ' ', '-', '3', '.', '4', '9', '0', '6', '5', '8', '5', 'e', '-', '1', ',', ' ', '-', '6', '.', '9', '8', '1', '3', '1', '7', '0', '1', 'e', '-', '2', ',', ' ', '0', ',', ' ', '8', '.', '7', '2', '6', '6', '4', '6', '2', '6', 'e', '-', '2', ',', ' ', '1', '.', '7', '4', '5', '3', '2', '9', '2', '5', 'e', '-', '1', ',', ' ', '3', '.', '4', '9', '0', '6', '5', '8', '5', 'e', '-', '1', ',', ' ', '5', '.', '2', '3', '5', '9', '8', '7', '7', '6', 'e', '-', '1', ' ', ']', ' ', ']', ',', '\n'] ++
  [' ', ' ', ' ', ' ', ' ', ' ', ' ', ' ', ' ', ' ', ' ', ' ', ' ', ' ', ' ', ' ', '"', 'y', '"', ':', ' ', '[', ' ', '"', 'm', 'a', 'c', 'h', '_', 'n', 'u', 'm', 'b', 'e', 'r', '"', ',', ' ', '[', ' ', '0', ',', ' ', '0', '.', '2', ',', ' ', '0', '.', '6', ',', ' ', '0', '.', '8', ',', ' ', '0', '.', '9', ',', ' ', '1', '.', '3', ',', ' ', '1', '.', '5', ',', ' ', '2', ',', ' ', '2', '.', '4', '8', ',', ' ', '3', ',', ' ', '3', '.', '9', ',', ' ', '4', '0', ' ', ']', ' ', ']', ',', '\n'] ++
  [' ', ' ', ' ', ' ', ' ', ' ', ' ', ' ', ' ', ' ', ' ', ' ', ' ', ' ', ' ', ' ', '"', 'd', 'a', 't', 'a', '"', ':', ' ', '[', '\n'] ++
  [' ', ' ', ' ', ' ', ' ', ' ', ' ', ' ', ' ', ' ', ' ', ' ', ' ', ' ', ' ', ' ', ' ', ' ', ' ', ' ', '[', ' ', '-', '0', '.', '0', '7', ',', ' ', '-', '0', '.', '0', '8', ',', ' ', '-', '0', '.', '1', '2', ',', ' ', '-', '0', '.', '1', '2', ',', ' ', '-', '0', '.', '1', '2', ',', ' ', '-', '0', '.', '1', '2', ',', ' ', '-', '0', '.', '1', '2', ',', ' ', '-', '0', '.', '1', '3', ',', ' ', '-', '0', '.', '1', '4', ',', ' ', '-', '0', '.', '1', '2', ',', ' ', '-', '0', '.', '1', ',', ' ', '-', '0', '.', '1', '4', ' ', ']', ',', '\n'] ++
  [' ', ' ', ' ', ' ', ' ', ' ', ' ', ' ', ' ', ' ', ' ', ' ', ' ', ' ', ' ', ' ', ' ', ' ', ' ', ' ', '[', ' ', '-', '0', '.', '0', '7', ',', ' ', '-', '0', '.', '0', '8', ',', ' ', '-', '0', '.', '1', '2', ',', ' ', '-', '0', '.', '1', '2', ',', ' ', '-', '0', '.', '1', '2', ',', ' ', '-', '0', '.', '1', '2', ',', ' ', '-', '0', '.', '1', '2', ',', ' ', '-', '0', '.', '1', '3', ',', ' ', '-', '0', '.', '1', '4', ',', ' ', '-', '0', '.', '1', '2', ',', ' ', '-', '0', '.', '1', ',', ' ', '-', '0', '.', '1', '4', ' ', ']', ',', '\n'] ++
  [' ', ' ', ' ', ' ', ' ', ' ', ' ', ' ', ' ', ' ', ' ', ' ', ' ', ' ', ' ', ' ', ' ', ' ', ' ', ' ', '[', ' ', '0', '.', '0', '8', ',', ' ', '0', '.', '0', '8', ',', ' ', '0', '.', '0', '8', ',', ' ', '0', '.', '0', '6', ',', ' ', '0', '.', '0', '6', ',', ' ', '0', '.', '0', '7', ',', ' ', '0', '.', '0', '4', ',', ' ', '0', '.', '0', ',', ' ', '-', '0', '.', '0', '2', ',', ' ', '-', '0', '.', '0', '3', ',', ' ', '-', '0', '.', '0', '4', ',', ' ', '0', '.', '0', '3', ' ', ']', ',', '\n'] ++
  [' ', ' ', ' ', ' ', ' ', ' ', ' ', ' ', ' ', ' ', ' ', ' ', ' ', ' ', ' ', ' ', ' ', ' ', ' ', ' ', '[', ' ', '0', '.', '2', '9', ',', ' ', '0', '.', '2', '9', ',', ' ', '0', '.', '2', '9', ',', ' ', '0', '.', '2', '8', ',', ' ', '0', '.', '2', '8', ',', ' ', '0', '.', '3', ',', ' ', '0', '.', '2', '4', ',', ' ', '0', '.', '1', '7', ',', ' ', '0', '.', '1', '2', ',', ' ', '0', '.', '0', '9', ',', ' ', '0', '.', '0', '8', ',', ' ', '0', '.', '2', '1', ' ', ']', ',', '\n'] ++
  [' ', ' ', ' ', ' ', ' ', ' ', ' ', ' ', ' ', ' ', ' ', ' ', ' ', ' ', ' ', ' ', ' ', ' ', ' ', ' ', '[', ' ', '0', '.', '5', ',', ' ', '0', '.', '6', ',', ' ', '0', '.', '4', '9', ',', ' ', '0', '.', '4', '8', ',', ' ', '0', '.', '5', '2', ',', ' ', '0', '.', '5', '2', ',', ' ', '0', '.', '4', '1', ',', ' ', '0', '.', '3', '3', ',', ' ', '0', '.', '2', '5', ',', ' ', '0', '.', '2', ',', ' ', '0', '.', '1', '5', ',', ' ', '0', '.', '4', ' ', ']', ',', '\n'] ++
  [' ', ' ', ' ', ' ', ' ', ' ', ' ', ' ', ' ', ' ', ' ', ' ', ' ', ' ', ' ', ' ', ' ', ' ', ' ', ' ', '[', ' ', '0', '.', '9', '4', ',', ' ', '0', '.', '9', '4', ',', ' ', '0', '.', '9', '2', ',', ' ', '0', '.', '9', ',', ' ', '0', '.', '9', '4', ',', ' ', '0', '.', '8', '9', ',', ' ', '0', '.', '7', '5', ',', ' ', '0', '.', '6', '8', ',', ' ', '0', '.', '6', '7', ',', ' ', '0', '.', '6', '5', ',', ' ', '0', '.', '6', '2', ',', ' ', '0', '.', '7', '6', ' ', ']', ',', '\n'] ++
  [' ', ' ', ' ', ' ', ' ', ' ', ' ', ' ', ' ', ' ', ' ', ' ', ' ', ' ', ' ', ' ', ' ', ' ', ' ', ' ', '[', ' ', '0', '.', '9', '4', ',', ' ', '0', '.', '9', '4', ',', ' ', '0', '.', '9', '2', ',', ' ', '0', '.', '9', ',', ' ', '0', '.', '9', '4', ',', ' ', '0', '.', '8', '9', ',', ' ', '0', '.', '7', '5', ',', ' ', '0', '.', '6', '8', ',', ' ', '0', '.', '6', '7', ',', ' ', '0', '.', '6', '5', ',', ' ', '0', '.', '6', '2', ',', ' ', '0', '.', '7', '6', ' ', ']', '\n'] ++
  [' ', ' ', ' ', ' ', ' ', ' ', ' ', ' ', ' ', ' ', ' ', ' ', ' ', ' ', ' ', ' ', ']', '\n'] ++
  [' ', ' ', ' ', ' ', ' ', ' ', ' ', ' ', ' ', ' ', ' ', ' ', '}', ',', '\n'] ++
  [' ', ' ', ' ', ' ', ' ', ' ', ' ', ' ', ' ', ' ', ' ', ' ', '"', 's', 'i', 'd', 'e', '_', 'f', 'o', 'r', 'c', 'e', '_', 'c', 'o', 'e', 'f', 'f', '"', ':', ' ', 'n', 'u', 'l', 'l', ',', '\n'] ++
  [' ', ' ', ' ', ' ', ' ', ' ', ' ', ' ', ' ', ' ', ' ', ' ', '"', 'e', 'n', 'g', 'i', 'n', 'e', 's', '"', ':', ' ', '[', '\n'] ++
  [' ', ' ', ' ', ' ', ' ', ' ', ' ', ' ', ' ', ' ', ' ', ' ', ' ', ' ', ' ', ' ', '{', '\n'] ++
  [' ', ' ', ' ', ' ', ' ', ' ', ' ', ' ', ' ', ' ', ' ', ' ', ' ', ' ', ' ', ' ', ' ', ' ', ' ', ' ', '"', 'i', 'n', 'c', 'i', 'd', 'e', 'n', 'c', 'e', '"', ':', ' ', '[', ' ', '0', ',', ' ', '0', ' ', ']', ',', '\n'] ++
  [' ', ' ', ' ', ' ', ' ', ' ', ' ', ' ', ' ', ' ', ' ', ' ', ' ', ' ', ' ', ' ', ' ', ' ', ' ', ' ', '"', 't', 'h', 'r', 'u', 's', 't', '_', 'v', 'a', 'c', '"', ':', ' ', '6', '.', '3', '6', '5', '4', '0', '5', '5', '5', 'e', '6', ',', '\n'] ++
  [' ', ' ', ' ', ' ', ' ', ' ', ' ', ' ', ' ', ' ', ' ', ' ', ' ', ' ', ' ', ' ', ' ', ' ', ' ', ' ', '"', 'i', 's', 'p', '_', 'v', 'a', 'c', '"', ':', ' ', '4', '5', '9', '.', '0', ',', '\n'] ++
  [' ', ' ', ' ', ' ', ' ', ' ', ' ', ' ', ' ', ' ', ' ', ' ', ' ', ' ', ' ', ' ', ' ', ' ', ' ', ' ', '"', 'e', 'x', 'i', 't', '_', 'a', 'r', 'e', 'a', '"', ':', ' ', '1', '.', '4', '3', '5', '7', '2', '3', '5', '8', 'e', '1', '\n'] ++
  [' ', ' ', ' ', ' ', ' ', ' ', ' ', ' ', ' ', ' ', ' ', ' ', ' ', ' ', ' ', ' ', '}', '\n'] ++
  [' ', ' ', ' ', ' ', ' ', ' ', ' ', ' ', ' ', ' ', ' ', ' ', ']', '\n'] ++
  [' ', ' ', ' ', ' ', ' ', ' ', ' ', ' ', '}', ',', '\n'] ++
  [' ', ' ', ' ', ' ', ' ', ' ', ' ', ' ', '"', 'm', 'a', 'x', '_', 'a', 'c', 'c', 'e', 'l', 'e', 'r', 'a', 't', 'i', 'o', 'n', '"', ':', ' ', '2', '9', '.', '4', '1', '9', '9', '5', ',', '\n'] ++
  [' ', ' ', ' ', ' ', ' ', ' ', ' ', ' ', '"', 's', 't', 'e', 'e', 'r', 'i', 'n', 'g', '"', ':', ' ', '{', ' ', '"', 'p', 'i', 't', 'c', 'h', '"', ':', ' ', '[', ' ', '"', 't', 'i', 'm', 'e', '_', 's', 'i', 'n', 'c', 'e', '_', 'e', 'v', 'e', 'n', 't', '"', ',', ' ', '[', ' ', '-', '1', '.', '3', '0', '6', '3', '5', '7', '2', '9', 'e', '-', '1', ',', ' ', '0', ',', ' ', '0', ' ', ']', ' ', ']', ' ', '}', ',', '\n'] ++
  [' ', ' ', ' ', ' ', ' ', ' ', ' ', ' ', '"', 's', 't', 'e', 'p', 's', 'i', 'z', 'e', '"', ':', ' ', '2', '0', ',', '\n'] ++
  [' ', ' ', ' ', ' ', ' ', ' ', ' ', ' ', '"', 'e', 'n', 'd', '_', 'c', 'r', 'i', 't', 'e', 'r', 'i', 'o', 'n', '"', ':', ' ', '[', ' ', '"', 't', 'i', 'm', 'e', '_', 's', 'i', 'n', 'c', 'e', '_', 'e', 'v', 'e', 'n', 't', '"', ',', ' ', '1', '0', '0', ' ', ']', '\n'] ++
  [' ', ' ', ' ', ' ', '}', ',', '\n'] ++
  [' ', ' ', ' ', ' ', '{', '\n'] ++
  [' ', ' ', ' ', ' ', ' ', ' ', ' ', ' ', '"', 's', 't', 'e', 'e', 'r', 'i', 'n', 'g', '"', ':', ' ', '{', ' ', '"', 'p', 'i', 't', 'c', 'h', '"', ':', ' ', '[', ' ', '"', 't', 'i', 'm', 'e', '_', 's', 'i', 'n', 'c', 'e', '_', 'e', 'v', 'e', 'n', 't', '"', ',', ' ', '[', ' ', '-', '1', '.', '1', '6', '7', '1', '1', '7', '7', '5', 'e', '-', '1', ',', ' ', '0', ',', ' ', '0', ' ', ']', ' ', ']', ' ', '}', ',', '\n'] ++
  [' ', ' ', ' ', ' ', ' ', ' ', ' ', ' ', '"', 'e', 'n', 'd', '_', 'c', 'r', 'i', 't', 'e', 'r', 'i', 'o', 'n', '"', ':', ' ', '[', ' ', '"', 't', 'i', 'm', 'e', '_', 's', 'i', 'n', 'c', 'e', '_', 'e', 'v', 'e', 'n', 't', '"', ',', ' ', '1', '5', '0', ' ', ']', '\n'] ++
  [' ', ' ', ' ', ' ', '}', ',', '\n'] ++
  [' ', ' ', ' ', ' ', '{', '\n'] ++
  [' ', ' ', ' ', ' ', ' ', ' ', ' ', ' ', '"', 'e', 'n', 'd', '_', 'c', 'r', 'i', 't', 'e', 'r', 'i', 'o', 'n', '"', ':', ' ', '[', ' ', '"', 'p', 'r', 'o', 'p', 'e', 'l', 'l', 'a', 'n', 't', '_', 'm', 'a', 's', 's', '"', ',', ' ', '0', ' ', ']', '\n'] ++
  [' ', ' ', ' ', ' ', '}', '\n'] ++
  [']']

/-- Section 1 of utils/example.json, with the numbers as they are written. -/
def raw1 : Json Decimal :=
  .obj [("planet_model", .str "spherical"), ("atmosphere", .obj [("enabled", .bool true), ("wind", .arr [.num ⟨false, [0], [], false, []⟩, .num ⟨false, [0], [], false, []⟩, .num ⟨false, [0], [], false, []⟩])]), ("init", .obj [("latitude", .num ⟨false, [2, 8], [5], false, []⟩), ("longitude", .num ⟨false, [2, 7, 9], [4], false, []⟩), ("azimuth", .num ⟨false, [9, 0], [], false, []⟩), ("altitude", .num ⟨false, [0], [], false, []⟩)]), ("vehicle", .obj [("structure_mass", .num ⟨false, [8], [0, 9, 3, 3, 6, 3, 5, 5], false, [5]⟩), ("propellant_mass", .num ⟨false, [1], [0, 2, 0, 1, 2, 9, 3, 1], false, [6]⟩), ("reference_area", .num ⟨false, [4], [1, 8, 0, 6, 3, 6, 8], false, [2]⟩), ("drag_coeff", .obj [("x", .arr [.str "alpha", .arr [.num ⟨true, [3], [4, 9, 0, 6, 5, 8, 5], true, [1]⟩, .num ⟨true, [8], [7, 2, 6, 6, 4, 6, 2, 6], true, [2]⟩, .num ⟨false, [0], [], false, []⟩, .num ⟨false, [8], [7, 2, 6, 6, 4, 6, 2, 6], true, [2]⟩, .num ⟨false, [3], [4, 9, 0, 6, 5, 8, 5], true, [1]⟩]]), ("y", .arr [.str "mach_number", .arr [.num ⟨false, [0], [], false, []⟩, .num ⟨false, [0], [5], false, []⟩, .num ⟨false, [0], [7], false, []⟩, .num ⟨false, [0], [8], false, []⟩, .num ⟨false, [1], [], false, []⟩, .num ⟨false, [1], [2], false, []⟩, .num ⟨false, [1], [5], false, []⟩, .num ⟨false, [2], [0], false, []⟩, .num ⟨false, [3], [], false, []⟩, .num ⟨false, [5], [], false, []⟩, .num ⟨false, [7], [], false, []⟩, .num ⟨false, [1, 0], [], false, []⟩]]), ("data", .arr [.arr [.num ⟨false, [1], [4, 5, 6], false, []⟩, .num ⟨false, [1], [5, 8, 5], false, []⟩, .num ⟨false, [1], [5, 9, 8], false, []⟩, .num ⟨false, [1], [2, 4, 2], false, []⟩, .num ⟨false, [3], [1, 5, 7], false, []⟩, .num ⟨false, [2], [9, 9, 6], false, []⟩, .num ⟨false, [1], [8, 1, 6], false, []⟩, .num ⟨false, [1], [3, 0, 1], false, []⟩, .num ⟨false, [0], [8, 5, 0], false, []⟩, .num ⟨false, [0], [4, 8, 2], false, []⟩, .num ⟨false, [0], [3, 8, 2], false, []⟩, .num ⟨false, [0], [3, 9, 6], false, []⟩], .arr [.num ⟨false, [0], [2, 6, 3], false, []⟩, .num ⟨false, [0], [3, 3, 8], false, []⟩, .num ⟨false, [0], [1, 1, 0], false, []⟩, .num ⟨false, [0], [3, 0, 2], false, []⟩, .num ⟨false, [0], [6, 9, 0], false, []⟩, .num ⟨false, [0], [6, 7, 1], false, []⟩, .num ⟨false, [0], [5, 6, 3], false, []⟩, .num ⟨false, [0], [4, 8, 0], false, []⟩, .num ⟨false, [0], [3, 8, 3], false, []⟩, .num ⟨false, [0], [2, 5, 6], false, []⟩, .num ⟨false, [0], [2, 1, 2], false, []⟩, .num ⟨false, [0], [2, 1, 0], false, []⟩], .arr [.num ⟨false, [0], [1, 8, 0], false, []⟩, .num ⟨false, [0], [1, 8], false, []⟩, .num ⟨false, [0], [2, 0, 0], false, []⟩, .num ⟨false, [0], [2, 5, 1], false, []⟩, .num ⟨false, [0], [4, 9, 5], false, []⟩, .num ⟨false, [0], [5, 0, 2], false, []⟩, .num ⟨false, [0], [4, 8, 5], false, []⟩, .num ⟨false, [0], [4, 5, 6], false, []⟩, .num ⟨false, [0], [3, 9, 1], false, []⟩, .num ⟨false, [0], [2, 7, 2], false, []⟩, .num ⟨false, [0], [2, 3, 1], false, []⟩, .num ⟨false, [0], [2, 3, 1], false, []⟩], .arr [.num ⟨false, [0], [2, 6, 3], false, []⟩, .num ⟨false, [0], [3, 3, 8], false, []⟩, .num ⟨false, [0], [1, 1, 0], false, []⟩, .num ⟨false, [0], [3, 0, 2], false, []⟩, .num ⟨false, [0], [6, 9, 0], false, []⟩, .num ⟨false, [0], [6, 7, 1], false, []⟩, .num ⟨false, [0], [5, 6, 3], false, []⟩, .num ⟨false, [0], [4, 8, 0], false, []⟩, .num ⟨false, [0], [3, 8, 3], false, []⟩, .num ⟨false, [0], [2, 5, 6], false, []⟩, .num ⟨false, [0], [2, 1, 2], false, []⟩, .num ⟨false, [0], [2, 1, 0], false, []⟩], .arr [.num ⟨false, [1], [4, 5, 6], false, []⟩, .num ⟨false, [1], [5, 8, 5], false, []⟩, .num ⟨false, [1], [5, 9, 8], false, []⟩, .num ⟨false, [1], [2, 4, 2], false, []⟩, .num ⟨false, [3], [1, 5, 7], false, []⟩, .num ⟨false, [2], [9, 9, 6], false, []⟩, .num ⟨false, [1], [8, 1, 6], false, []⟩, .num ⟨false, [1], [3, 0, 1], false, []⟩, .num ⟨false, [0], [8, 5, 0], false, []⟩, .num ⟨false, [0], [4, 8, 2], false, []⟩, .num ⟨false, [0], [3, 8, 2], false, []⟩, .num ⟨false, [0], [3, 9, 6], false, []⟩]])]), ("lift_coeff", .obj [("x", .arr [.str "alpha", .arr [.num ⟨true, [3], [4, 9, 0, 6, 5, 8, 5], true, [1]⟩, .num ⟨false, [0], [], false, []⟩, .num ⟨false, [8], [7, 2, 6, 6, 4, 6, 2, 6], true, [2]⟩, .num ⟨false, [3], [4, 9, 0, 6, 5, 8, 5], true, [1]⟩]]), ("y", .arr [.str "mach_number", .arr [.num ⟨false, [0], [], false, []⟩, .num ⟨false, [0], [5], false, []⟩, .num ⟨false, [0], [7], false, []⟩, .num ⟨false, [0], [8], false, []⟩, .num ⟨false, [1], [], false, []⟩, .num ⟨false, [1], [2], false, []⟩, .num ⟨false, [1], [5], false, []⟩, .num ⟨false, [2], [0], false, []⟩, .num ⟨false, [3], [], false, []⟩, .num ⟨false, [5], [], false, []⟩, .num ⟨false, [7], [], false, []⟩, .num ⟨false, [1, 0], [], false, []⟩]]), ("data", .arr [.arr [.num ⟨true, [1], [0, 1, 0], false, []⟩, .num ⟨true, [1], [0, 2, 5], false, []⟩, .num ⟨true, [0], [9, 9], false, []⟩, .num ⟨true, [0], [8, 1, 5], false, []⟩, .num ⟨true, [1], [0, 8], false, []⟩, .num ⟨true, [1], [1, 1], false, []⟩, .num ⟨true, [0], [8, 9, 5], false, []⟩, .num ⟨true, [0], [7, 8, 8], false, []⟩, .num ⟨true, [0], [6, 3, 5], false, []⟩, .num ⟨true, [0], [4, 8, 0], false, []⟩, .num ⟨true, [0], [4, 3], false, []⟩, .num ⟨true, [0], [4, 3], false, []⟩], .arr [.num ⟨false, [0], [0, 1, 5], false, []⟩, .num ⟨false, [0], [0, 4], false, []⟩, .num ⟨false, [0], [0, 1], false, []⟩, .num ⟨true, [0], [0, 4, 5], false, []⟩, .num ⟨false, [0], [0, 8], false, []⟩, .num ⟨false, [0], [0, 3, 8], false, []⟩, .num ⟨true, [0], [0, 2], false, []⟩, .num ⟨true, [0], [1, 0, 8], false, []⟩, .num ⟨true, [0], [1, 4, 5], false, []⟩, .num ⟨true, [0], [1, 5], false, []⟩, .num ⟨true, [0], [1, 5], false, []⟩, .num ⟨true, [0], [1, 5], false, []⟩], .arr [.num ⟨false, [0], [5, 4, 5], false, []⟩, .num ⟨false, [0], [7, 5], false, []⟩, .num ⟨false, [0], [5, 3], false, []⟩, .num ⟨false, [0], [3, 6, 5], false, []⟩, .num ⟨false, [0], [6, 9], false, []⟩, .num ⟨false, [0], [6, 3, 8], false, []⟩, .num ⟨false, [0], [4, 3], false, []⟩, .num ⟨false, [0], [2, 4, 2], false, []⟩, .num ⟨false, [0], [1, 1], false, []⟩, .num ⟨false, [0], [0, 2, 5], false, []⟩, .num ⟨false, [0], [0, 0], false, []⟩, .num ⟨false, [0], [0, 0], false, []⟩], .arr [.num ⟨false, [2], [1, 3, 5], false, []⟩, .num ⟨false, [2], [2, 4], false, []⟩, .num ⟨false, [2], [0, 9], false, []⟩, .num ⟨false, [1], [5, 9, 5], false, []⟩, .num ⟨false, [2], [5, 2], false, []⟩, .num ⟨false, [2], [4, 3, 8], false, []⟩, .num ⟨false, [1], [7, 8], false, []⟩, .num ⟨false, [1], [2, 9, 2], false, []⟩, .num ⟨false, [0], [8, 7, 5], false, []⟩, .num ⟨false, [0], [5, 5], false, []⟩, .num ⟨false, [0], [4, 5], false, []⟩, .num ⟨false, [0], [4, 5], false, []⟩]])]), ("side_force_coeff", .null), ("engines", .arr [.obj [("incidence", .arr [.num ⟨false, [0], [], false, []⟩, .num ⟨false, [0], [], false, []⟩]), ("thrust_vac", .num ⟨false, [2], [4, 3, 4, 0, 6, 7, 0, 3], false, [7]⟩), ("isp_vac", .num ⟨false, [4, 3, 9], [0], false, []⟩), ("exit_area", .num ⟨false, [2], [1, 5, 9, 9, 9, 5, 6, 8], false, [1]⟩)]])]), ("max_acceleration", .num ⟨true, [1], [], false, []⟩), ("steering", .obj [("pitch", .arr [.str "time_since_event", .arr [.num ⟨false, [0], [], false, []⟩, .num ⟨false, [0], [], false, []⟩, .num ⟨false, [0], [], false, []⟩]])]), ("stepsize", .num ⟨false, [5], [], false, []⟩), ("end_criterion", .arr [.str "time", .num ⟨false, [1, 5], [], false, []⟩])]

/-- Section 2 of utils/example.json, with the numbers as they are written. -/
def raw2 : Json Decimal :=
  .obj [("steering", .obj [("pitch", .arr [.str "time_since_event", .arr [.num ⟨true, [4], [0, 2, 9, 5, 9, 1, 1, 0], true, [1]⟩, .num ⟨false, [0], [], false, []⟩, .num ⟨false, [0], [], false, []⟩]])]), ("end_criterion", .arr [.str "time", .num ⟨false, [2, 5], [], false, []⟩])]

/-- Section 3 of utils/example.json, with the numbers as they are written. -/
def raw3 : Json Decimal :=
  .obj [("steering", .obj [("pitch", .arr [.str "time_since_event", .arr [.num ⟨true, [4], [5, 5, 8, 5, 3, 6, 2, 0], true, [1]⟩, .num ⟨false, [0], [], false, []⟩, .num ⟨false, [0], [], false, []⟩]])]), ("end_criterion", .arr [.str "time", .num ⟨false, [4, 0], [], false, []⟩])]

/-- Section 4 of utils/example.json, with the numbers as they are written. -/
def raw4 : Json Decimal :=
  .obj [("steering", .obj [("pitch", .arr [.str "time_since_event", .arr [.num ⟨true, [1], [6, 7, 8, 8, 8, 9, 6, 3], true, [1]⟩, .num ⟨false, [0], [], false, []⟩, .num ⟨false, [0], [], false, []⟩]])]), ("end_criterion", .arr [.str "time", .num ⟨false, [6, 0], [], false, []⟩])]

/-- Section 5 of utils/example.json, with the numbers as they are written. -/
def raw5 : Json Decimal :=
  .obj [("max_acceleration", .num ⟨false, [2, 9], [4, 1, 9, 9, 5], false, []⟩), ("steering", .obj [("pitch", .arr [.str "time_since_event", .arr [.num ⟨true, [6], [7, 7, 2, 4, 3, 2, 5, 1], true, [1]⟩, .num ⟨false, [0], [], false, []⟩, .num ⟨false, [0], [], false, []⟩]])]), ("end_criterion", .arr [.str "time", .num ⟨false, [1, 2, 0], [], false, []⟩])]

/-- Section 6 of utils/example.json, with the numbers as they are written. -/
def raw6 : Json Decimal :=
  .obj [("steering", .obj [("pitch", .arr [.str "time_since_event", .arr [.num ⟨true, [2], [8, 7, 6, 7, 2, 4, 2, 9], true, [1]⟩, .num ⟨false, [0], [], false, []⟩, .num ⟨false, [0], [], false, []⟩]])]), ("end_criterion", .arr [.str "time", .num ⟨false, [1, 5, 0], [], false, []⟩])]

/-- Section 7 of utils/example.json, with the numbers as they are written. -/
def raw7 : Json Decimal :=
  .obj [("steering", .obj [("pitch", .arr [.str "time_since_event", .arr [.num ⟨true, [6], [8, 5, 7, 0, 8, 4, 5, 1], true, [2]⟩, .num ⟨false, [0], [], false, []⟩, .num ⟨false, [0], [], false, []⟩]])]), ("stepsize", .num ⟨false, [1, 0], [], false, []⟩), ("end_criterion", .arr [.str "propellant_mass", .num ⟨false, [0], [], false, []⟩])]

/-- Section 8 of utils/example.json, with the numbers as they are written. -/
def raw8 : Json Decimal :=
  .obj [("vehicle", .obj [("engines", .arr [])]), ("max_acceleration", .num ⟨true, [1], [], false, []⟩), ("end_criterion", .arr [.str "time_since_event", .num ⟨false, [7], [], false, []⟩])]

/-- Section 9 of utils/example.json, with the numbers as they are written. -/
def raw9 : Json Decimal :=
  .obj [("vehicle", .obj [("structure_mass", .num ⟨false, [1], [4, 0, 7, 4, 1, 1, 5, 8], false, [5]⟩), ("propellant_mass", .num ⟨false, [3], [6, 6, 9, 5, 6, 2, 5, 2], false, [5]⟩), ("reference_area", .num ⟨false, [4], [4, 9, 6, 5, 0, 7, 1, 4], false, [2]⟩), ("drag_coeff", .obj [("x", .arr [.str "alpha", .arr [.num ⟨true, [3], [4, 9, 0, 6, 5, 8, 5], true, [1]⟩, .num ⟨true, [6], [9, 8, 1, 3, 1, 7, 0, 1], true, [2]⟩, .num ⟨false, [0], [], false, []⟩, .num ⟨false, [8], [7, 2, 6, 6, 4, 6, 2, 6], true, [2]⟩, .num ⟨false, [1], [7, 4, 5, 3, 2, 9, 2, 5], true, [1]⟩, .num ⟨false, [3], [4, 9, 0, 6, 5, 8, 5], true, [1]⟩, .num ⟨false, [5], [2, 3, 5, 9, 8, 7, 7, 6], true, [1]⟩]]), ("y", .arr [.str "mach_number", .arr [.num ⟨false, [0], [], false, []⟩, .num ⟨false, [0], [2], false, []⟩, .num ⟨false, [0], [6], false, []⟩, .num ⟨false, [0], [8], false, []⟩, .num ⟨false, [0], [9], false, []⟩, .num ⟨false, [1], [3], false, []⟩, .num ⟨false, [1], [5], false, []⟩, .num ⟨false, [2], [], false, []⟩, .num ⟨false, [2], [4, 8], false, []⟩, .num ⟨false, [3], [], false, []⟩, .num ⟨false, [3], [9], false, []⟩, .num ⟨false, [4, 0], [], false, []⟩]]), ("data", .arr [.arr [.num ⟨false, [0], [0, 2, 4], false, []⟩, .num ⟨false, [0], [0, 2, 4], false, []⟩, .num ⟨false, [0], [0, 2, 6], false, []⟩, .num ⟨false, [0], [0, 2, 8], false, []⟩, .num ⟨false, [0], [0, 3, 5], false, []⟩, .num ⟨false, [0], [9, 3], false, []⟩, .num ⟨false, [0], [1, 2, 2], false, []⟩, .num ⟨false, [0], [1, 1, 6], false, []⟩, .num ⟨false, [0], [1], false, []⟩, .num ⟨false, [0], [0, 9, 2], false, []⟩, .num ⟨false, [0], [0, 8, 2], false, []⟩, .num ⟨false, [0], [0, 3], false, []⟩], .arr [.num ⟨false, [0], [0, 2, 4], false, []⟩, .num ⟨false, [0], [0, 2, 4], false, []⟩, .num ⟨false, [0], [0, 2, 6], false, []⟩, .num ⟨false, [0], [0, 2, 8], false, []⟩, .num ⟨false, [0], [0, 3, 5], false, []⟩, .num ⟨false, [0], [9, 3], false, []⟩, .num ⟨false, [0], [1, 2, 2], false, []⟩, .num ⟨false, [0], [1, 1, 6], false, []⟩, .num ⟨false, [0], [1], false, []⟩, .num ⟨false, [0], [0, 9, 2], false, []⟩, .num ⟨false, [0], [0, 8, 2], false, []⟩, .num ⟨false, [0], [0, 3], false, []⟩], .arr [.num ⟨false, [0], [0, 2, 6], false, []⟩, .num ⟨false, [0], [0, 2, 6], false, []⟩, .num ⟨false, [0], [0, 2, 6], false, []⟩, .num ⟨false, [0], [0, 2, 4], false, []⟩, .num ⟨false, [0], [0, 3, 6], false, []⟩, .num ⟨false, [0], [0, 9, 2], false, []⟩, .num ⟨false, [0], [1, 1, 8], false, []⟩, .num ⟨false, [0], [1, 0, 6], false, []⟩, .num ⟨false, [0], [0, 9, 1], false, []⟩, .num ⟨false, [0], [0, 8, 2], false, []⟩, .num ⟨false, [0], [0, 7, 4], false, []⟩, .num ⟨false, [0], [0, 2, 2], false, []⟩], .arr [.num ⟨false, [0], [0, 4, 2], false, []⟩, .num ⟨false, [0], [0, 4, 2], false, []⟩, .num ⟨false, [0], [0, 4], false, []⟩, .num ⟨false, [0], [0, 4, 2], false, []⟩, .num ⟨false, [0], [0, 7, 6], false, []⟩, .num ⟨false, [0], [1, 2, 4], false, []⟩, .num ⟨false, [0], [1, 4, 2], false, []⟩, .num ⟨false, [0], [1, 2, 4], false, []⟩, .num ⟨false, [0], [0, 9, 8], false, []⟩, .num ⟨false, [0], [0, 8, 8], false, []⟩, .num ⟨false, [0], [0, 7, 9], false, []⟩, .num ⟨false, [0], [0, 3, 3], false, []⟩], .arr [.num ⟨false, [0], [0, 7, 6], false, []⟩, .num ⟨false, [0], [0, 7, 6], false, []⟩, .num ⟨false, [0], [0, 8], false, []⟩, .num ⟨false, [0], [1], false, []⟩, .num ⟨false, [0], [1, 3], false, []⟩, .num ⟨false, [0], [1, 9, 4], false, []⟩, .num ⟨false, [0], [1, 9, 2], false, []⟩, .num ⟨false, [0], [1, 6, 5], false, []⟩, .num ⟨false, [0], [1, 2, 7], false, []⟩, .num ⟨false, [0], [1, 1, 4], false, []⟩, .num ⟨false, [0], [0, 9, 5], false, []⟩, .num ⟨false, [0], [0, 5, 7], false, []⟩], .arr [.num ⟨false, [0], [3, 6], false, []⟩, .num ⟨false, [0], [3, 6], false, []⟩, .num ⟨false, [0], [3, 6, 2], false, []⟩, .num ⟨false, [0], [4, 4], false, []⟩, .num ⟨false, [0], [4, 1], false, []⟩, .num ⟨false, [0], [3, 9], false, []⟩, .num ⟨false, [0], [3, 6], false, []⟩, .num ⟨false, [0], [3, 2], false, []⟩, .num ⟨false, [0], [2, 4, 2], false, []⟩, .num ⟨false, [0], [2, 2, 4], false, []⟩, .num ⟨false, [0], [2, 1, 6], false, []⟩, .num ⟨false, [0], [2, 3, 8], false, []⟩], .arr [.num ⟨false, [0], [3, 6], false, []⟩, .num ⟨false, [0], [3, 6], false, []⟩, .num ⟨false, [0], [3, 6], false, []⟩, .num ⟨false, [0], [4, 4], false, []⟩, .num ⟨false, [0], [4, 1], false, []⟩, .num ⟨false, [0], [3, 9], false, []⟩, .num ⟨false, [0], [3, 6], false, []⟩, .num ⟨false, [0], [3, 2], false, []⟩, .num ⟨false, [0], [4, 4], false, []⟩, .num ⟨false, [0], [4, 1, 8], false, []⟩, .num ⟨false, [0], [4], false, []⟩, .num ⟨false, [0], [3], false, []⟩]])]), ("lift_coeff", .obj [("x", .arr [.str "alpha", .arr [.num ⟨true, [3], [4, 9, 0, 6, 5, 8, 5], true, [1]⟩, .num ⟨true, [6], [9, 8, 1, 3, 1, 7, 0, 1], true, [2]⟩, .num ⟨false, [0], [], false, []⟩, .num ⟨false, [8], [7, 2, 6, 6, 4, 6, 2, 6], true, [2]⟩, .num ⟨false, [1], [7, 4, 5, 3, 2, 9, 2, 5], true, [1]⟩, .num ⟨false, [3], [4, 9, 0, 6, 5, 8, 5], true, [1]⟩, .num ⟨false, [5], [2, 3, 5, 9, 8, 7, 7, 6], true, [1]⟩]]), ("y", .arr [.str "mach_number", .arr [.num ⟨false, [0], [], false, []⟩, .num ⟨false, [0], [2], false, []⟩, .num ⟨false, [0], [6], false, []⟩, .num ⟨false, [0], [8], false, []⟩, .num ⟨false, [0], [9], false, []⟩, .num ⟨false, [1], [3], false, []⟩, .num ⟨false, [1], [5], false, []⟩, .num ⟨false, [2], [], false, []⟩, .num ⟨false, [2], [4, 8], false, []⟩, .num ⟨false, [3], [], false, []⟩, .num ⟨false, [3], [9], false, []⟩, .num ⟨false, [4, 0], [], false, []⟩]]), ("data", .arr [.arr [.num ⟨true, [0], [0, 7], false, []⟩, .num ⟨true, [0], [0, 8], false, []⟩, .num ⟨true, [0], [1, 2], false, []⟩, .num ⟨true, [0], [1, 2], false, []⟩, .num ⟨true, [0], [1, 2], false, []⟩, .num ⟨true, [0], [1, 2], false, []⟩, .num ⟨true, [0], [1, 2], false, []⟩, .num ⟨true, [0], [1, 3], false, []⟩, .num ⟨true, [0], [1, 4], false, []⟩, .num ⟨true, [0], [1, 2], false, []⟩, .num ⟨true, [0], [1], false, []⟩, .num ⟨true, [0], [1, 4], false, []⟩], .arr [.num ⟨true, [0], [0, 7], false, []⟩, .num ⟨true, [0], [0, 8], false, []⟩, .num ⟨true, [0], [1, 2], false, []⟩, .num ⟨true, [0], [1, 2], false, []⟩, .num ⟨true, [0], [1, 2], false, []⟩, .num ⟨true, [0], [1, 2], false, []⟩, .num ⟨true, [0], [1, 2], false, []⟩, .num ⟨true, [0], [1, 3], false, []⟩, .num ⟨true, [0], [1, 4], false, []⟩, .num ⟨true, [0], [1, 2], false, []⟩, .num ⟨true, [0], [1], false, []⟩, .num ⟨true, [0], [1, 4], false, []⟩], .arr [.num ⟨false, [0], [0, 8], false, []⟩, .num ⟨false, [0], [0, 8], false, []⟩, .num ⟨false, [0], [0, 8], false, []⟩, .num ⟨false, [0], [0, 6], false, []⟩, .num ⟨false, [0], [0, 6], false, []⟩, .num ⟨false, [0], [0, 7], false, []⟩, .num ⟨false, [0], [0, 4], false, []⟩, .num ⟨false, [0], [0], false, []⟩, .num ⟨true, [0], [0, 2], false, []⟩, .num ⟨true, [0], [0, 3], false, []⟩, .num ⟨true, [0], [0, 4], false, []⟩, .num ⟨false, [0], [0, 3], false, []⟩], .arr [.num ⟨false, [0], [2, 9], false, []⟩, .num ⟨false, [0], [2, 9], false, []⟩, .num ⟨false, [0], [2, 9], false, []⟩, .num ⟨false, [0], [2, 8], false, []⟩, .num ⟨false, [0], [2, 8], false, []⟩, .num ⟨false, [0], [3], false, []⟩, .num ⟨false, [0], [2, 4], false, []⟩, .num ⟨false, [0], [1, 7], false, []⟩, .num ⟨false, [0], [1, 2], false, []⟩, .num ⟨false, [0], [0, 9], false, []⟩, .num ⟨false, [0], [0, 8], false, []⟩, .num ⟨false, [0], [2, 1], false, []⟩], .arr [.num ⟨false, [0], [5], false, []⟩, .num ⟨false, [0], [6], false, []⟩, .num ⟨false, [0], [4, 9], false, []⟩, .num ⟨false, [0], [4, 8], false, []⟩, .num ⟨false, [0], [5, 2], false, []⟩, .num ⟨false, [0], [5, 2], false, []⟩, .num ⟨false, [0], [4, 1], false, []⟩, .num ⟨false, [0], [3, 3], false, []⟩, .num ⟨false, [0], [2, 5], false, []⟩, .num ⟨false, [0], [2], false, []⟩, .num ⟨false, [0], [1, 5], false, []⟩, .num ⟨false, [0], [4], false, []⟩], .arr [.num ⟨false, [0], [9, 4], false, []⟩, .num ⟨false, [0], [9, 4], false, []⟩, .num ⟨false, [0], [9, 2], false, []⟩, .num ⟨false, [0], [9], false, []⟩, .num ⟨false, [0], [9, 4], false, []⟩, .num ⟨false, [0], [8, 9], false, []⟩, .num ⟨false, [0], [7, 5], false, []⟩, .num ⟨false, [0], [6, 8], false, []⟩, .num ⟨false, [0], [6, 7], false, []⟩, .num ⟨false, [0], [6, 5], false, []⟩, .num ⟨false, [0], [6, 2], false, []⟩, .num ⟨false, [0], [7, 6], false, []⟩], .arr [.num ⟨false, [0], [9, 4], false, []⟩, .num ⟨false, [0], [9, 4], false, []⟩, .num ⟨false, [0], [9, 2], false, []⟩, .num ⟨false, [0], [9], false, []⟩, .num ⟨false, [0], [9, 4], false, []⟩, .num ⟨false, [0], [8, 9], false, []⟩, .num ⟨false, [0], [7, 5], false, []⟩, .num ⟨false, [0], [6, 8], false, []⟩, .num ⟨false, [0], [6, 7], false, []⟩, .num ⟨false, [0], [6, 5], false, []⟩, .num ⟨false, [0], [6, 2], false, []⟩, .num ⟨false, [0], [7, 6], false, []⟩]])]), ("side_force_coeff", .null), ("engines", .arr [.obj [("incidence", .arr [.num ⟨false, [0], [], false, []⟩, .num ⟨false, [0], [], false, []⟩]), ("thrust_vac", .num ⟨false, [6], [3, 6, 5, 4, 0, 5, 5, 5], false, [6]⟩), ("isp_vac", .num ⟨false, [4, 5, 9], [0], false, []⟩), ("exit_area", .num ⟨false, [1], [4, 3, 5, 7, 2, 3, 5, 8], false, [1]⟩)]])]), ("max_acceleration", .num ⟨false, [2, 9], [4, 1, 9, 9, 5], false, []⟩), ("steering", .obj [("pitch", .arr [.str "time_since_event", .arr [.num ⟨true, [1], [3, 0, 6, 3, 5, 7, 2, 9], true, [1]⟩, .num ⟨false, [0], [], false, []⟩, .num ⟨false, [0], [], false, []⟩]])]), ("stepsize", .num ⟨false, [2, 0], [], false, []⟩), ("end_criterion", .arr [.str "time_since_event", .num ⟨false, [1, 0, 0], [], false, []⟩])]

/-- Section 10 of utils/example.json, with the numbers as they are written. -/
def raw10 : Json Decimal :=
  .obj [("steering", .obj [("pitch", .arr [.str "time_since_event", .arr [.num ⟨true, [1], [1, 6, 7, 1, 1, 7, 7, 5], true, [1]⟩, .num ⟨false, [0], [], false, []⟩, .num ⟨false, [0], [], false, []⟩]])]), ("end_criterion", .arr [.str "time_since_event", .num ⟨false, [1, 5, 0], [], false, []⟩])]

/-- Section 11 of utils/example.json, with the numbers as they are written. -/
def raw11 : Json Decimal :=
  .obj [("end_criterion", .arr [.str "propellant_mass", .num ⟨false, [0], [], false, []⟩])]

/-- utils/example.json, with the numbers as they are written -/
def raw : Json Decimal := .arr [raw1, raw2, raw3, raw4, raw5, raw6, raw7, raw8, raw9, raw10, raw11]

end Post.Shipped
