__pycache__/
lean/.lake/
