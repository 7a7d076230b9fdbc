__pycache__/
lean/.lake/
lean/build/
