#!/bin/bash
# Regenerates the certificates of the known-answer test. Two chains of modules, so that at most two of them are checked at a time.
cd "$(dirname "$0")"
K=../lean/Verif/Kat
A=$(python3 katgen.py shake_128f 33 9 22 $K -)
A=$(python3 katgen.py shake_192f 11 9 11 $K $A)
A=$(python3 katgen.py shake_256f 12 9 9 $K $A)
A=$(python3 katgen.py shake_128s 1 14 24 $K $A 6)
A=$(python3 katgen.py shake_192s 1 9 24 $K $A 6)
A=$(python3 katgen.py shake_256s 1 11 24 $K $A 5)
A=$(python3 katgen.py sha2_128f 17 9 22 $K -)
A=$(python3 katgen.py sha2_192f 11 9 11 $K $A)
A=$(python3 katgen.py sha2_256f 7 5 9 $K $A)
A=$(python3 katgen.py sha2_128s 1 14 24 $K $A 6)
A=$(python3 katgen.py sha2_192s 1 9 24 $K $A 6)
A=$(python3 katgen.py sha2_256s 1 11 24 $K $A 5)
