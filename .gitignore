tools/__pycache__/
lean/.lake/
